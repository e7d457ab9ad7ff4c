import Verif.DumpRead

/-
The items of Spec/DumpItems.lean can be read back.
-/

namespace H264
open H264.Shown

def isJoined : Item → Bool
  | .joined .. => true
  | _ => false

/-- Items that can be read back, all on their own lines. -/
def Fine (is : List Item) : Prop := ∀ i ∈ is, Good i ∧ isJoined i = false

theorem Fine.goods {is : List Item} (h : Fine is) : Goods is := by
  induction is with
  | nil => exact trivial
  | cons i is ih =>
    refine ⟨(h i (by simp)).1, ih fun j hj => h j (by simp [hj]), ?_⟩
    intro hs
    cases is with
    | nil => simp [startsJoined] at hs
    | cons j is =>
      have := (h j (by simp)).2
      cases j <;> simp [startsJoined, isJoined] at hs this

theorem fine_nil : Fine [].flatten := by simp [Fine]
theorem fine_cons {a : List Item} {bs : List (List Item)} (h : Fine a) (hs : Fine bs.flatten) : Fine (a :: bs).flatten := by
  intro i hi
  rw [List.flatten_cons, List.mem_append] at hi
  exact hi.elim (h i) (hs i)
theorem fine_one {i : Item} (h : Good i) (hj : isJoined i = false) : Fine [i] := by
  intro j hj'
  rw [List.mem_singleton.mp hj']
  exact ⟨h, hj⟩
theorem fine_opt {c : Prop} [Decidable c] {is : List (List Item)} (h : Fine is.flatten) : Fine (Shown.opt c is) := by
  unfold Shown.opt
  split
  · exact h
  · exact fine_nil
theorem fine_part {α : Type} {x : Option α} {f : α → Item} (h : ∀ a, Good (f a)) (hj : ∀ a, isJoined (f a) = false) :
    Fine (part x f) := by
  cases x with
  | none => exact fine_nil
  | some a => exact fine_one (h a) (hj a)
theorem fine_line {α : Type} {x : Option α} {f : α → Item} (h : ∀ a, Good (f a)) (hj : ∀ a, isJoined (f a) = false) :
    Fine (line x f) := by
  cases x with
  | none => exact fine_one trivial rfl
  | some a => exact fine_one (h a) (hj a)
theorem good_struct {name : String} {is : List (List Item)} (hn : goodWord name.toList = true) (h : Fine is.flatten) :
    Good (struct name is) := ⟨hn, h.goods⟩

/-! ### Numbers -/

/-- A digit, a sign or a letter. -/
def wordChar (c : Char) : Bool := plainChar c && c != ':'

theorem goodWord_of {w : List Char} (h0 : w ≠ []) (h : ∀ c ∈ w, wordChar c = true) : goodWord w = true := by
  simp only [goodWord, Bool.and_eq_true, Bool.not_eq_true', List.isEmpty_eq_false_iff, bne_iff_ne]
  refine ⟨⟨h0, ?_⟩, ?_⟩
  · rw [List.all_eq_true]
    intro c hc
    have := h c hc
    simp only [wordChar, Bool.and_eq_true] at this
    exact this.1
  · intro hl
    have := h ':' (List.mem_of_getLast? hl)
    revert this; decide

theorem digit_word {n : Nat} (h : n < 16) : wordChar n.digitChar = true := by
  have : ∀ n < 16, wordChar n.digitChar = true := by decide
  exact this n h

theorem toDigits_word (b : Nat) (hb : 1 < b) (hb' : b ≤ 16) (v : Nat) : (∀ c ∈ Nat.toDigits b v, wordChar c = true) ∧ Nat.toDigits b v ≠ [] := by
  induction v using Nat.strongRecOn with
  | ind v ih =>
    rw [Nat.toDigits_eq_if hb]
    split
    · refine ⟨?_, by simp⟩
      intro c hc
      rw [List.mem_singleton.mp hc]
      exact digit_word (by omega)
    · have hlt : v / b < v := Nat.div_lt_self (by omega) hb
      refine ⟨?_, by simp⟩
      intro c hc
      rw [List.mem_append] at hc
      rcases hc with hc | hc
      · exact (ih _ hlt).1 c hc
      · rw [List.mem_singleton.mp hc]
        exact digit_word (by have := Nat.mod_lt v (show b > 0 by omega); omega)

theorem nat_word (v : Nat) : goodWord (toString v).toList = true := by
  have h := toDigits_word 10 (by decide) (by decide) v
  have e : (toString v).toList = Nat.toDigits 10 v := by simp [toString, Nat.repr]
  rw [e]
  exact goodWord_of h.2 h.1

theorem int_word (v : Int) : goodWord (toString v).toList = true := by
  cases v with
  | ofNat n => exact nat_word n
  | negSucc n =>
    have h := toDigits_word 10 (by decide) (by decide) (n + 1)
    have e : (toString (Int.negSucc n)).toList = '-' :: Nat.toDigits 10 (n + 1) := by
      show ("-" ++ Nat.repr (n + 1)).toList = _
      rw [String.toList_append]
      simp [Nat.repr]
    rw [e]
    refine goodWord_of (by simp) ?_
    intro c hc
    rcases List.mem_cons.mp hc with rfl | hc
    · decide
    · exact h.1 c hc

theorem hex_word (v : Nat) : goodWord (hex v) = true := by
  have h := toDigits_word 16 (by decide) (by decide) v
  unfold hex
  refine goodWord_of (by simp) ?_
  intro c hc
  rw [List.mem_append] at hc
  rcases hc with hc | hc
  · revert c; decide
  · unfold List.leftpad at hc
    rw [List.mem_append] at hc
    rcases hc with hc | hc
    · rw [List.eq_of_mem_replicate hc]; decide
    · exact h.1 c hc

theorem hex8_word (v : Nat) : goodWord ("0x".toList ++ Spec.hex8 v) = true := by
  refine goodWord_of (by simp) ?_
  intro c hc
  rw [List.mem_append] at hc
  rcases hc with hc | hc
  · revert c; decide
  · unfold Spec.hex8 at hc
    rw [List.mem_map] at hc
    obtain ⟨k, _, rfl⟩ := hc
    exact digit_word (by omega)

theorem goodWord_line {w : List Char} (h : goodWord w = true) : '\n' ∉ w := by
  simp only [goodWord, Bool.and_eq_true, List.all_eq_true] at h
  intro hm
  have := h.1.2 _ hm
  revert this; decide

theorem good_field {name : String} {v : List Char} (hn : goodWord name.toList = true) (hv : goodWord v = true) :
    Fine [.field name v] := by
  refine fine_one ⟨hn, ?_, ?_⟩ rfl
  · rw [lex_word hv]
    intro w hw
    rw [List.mem_singleton.mp hw]; exact hv
  · exact goodWord_line hv

theorem fine_nat {name : String} {v : Nat} (hn : goodWord name.toList = true) : Fine (nat name v) := good_field hn (nat_word v)
theorem fine_int {name : String} {v : Int} (hn : goodWord name.toList = true) : Fine (int name v) := good_field hn (int_word v)
theorem fine_mod32 {name : String} {v : Int} (hn : goodWord name.toList = true) : Fine (mod32 name v) := good_field hn (int_word _)
theorem fine_nats {name : String} {vs : List Nat} (hn : goodWord name.toList = true) : Fine (nats name vs) := by
  refine fine_one ⟨hn, ?_⟩ rfl
  intro w hw
  rw [List.mem_map] at hw
  obtain ⟨v, _, rfl⟩ := hw
  exact nat_word v
theorem fine_ints {name : String} {vs : List Int} (hn : goodWord name.toList = true) : Fine (ints name vs) := by
  refine fine_one ⟨hn, ?_⟩ rfl
  intro w hw
  rw [List.mem_map] at hw
  obtain ⟨v, _, rfl⟩ := hw
  exact int_word v
theorem fine_intRows {name : String} {vs : List (List Int)} (hn : goodWord name.toList = true) : Fine (intRows name vs) := by
  refine fine_one ⟨hn, ?_⟩ rfl
  intro r hr w hw
  rw [List.mem_map] at hr
  obtain ⟨v, _, rfl⟩ := hr
  rw [List.mem_map] at hw
  obtain ⟨v, _, rfl⟩ := hw
  exact int_word v

/-- Steps through a list of items. -/
macro "fine" : tactic => `(tactic| repeat' (first
  | with_reducible exact fine_nil
  | with_reducible refine fine_cons ?_ ?_
  | with_reducible refine fine_opt ?_
  | (with_reducible refine fine_nat ?_; decide +kernel)
  | (with_reducible refine fine_int ?_; decide +kernel)
  | (with_reducible refine fine_mod32 ?_; decide +kernel)
  | (with_reducible refine fine_nats ?_; decide +kernel)
  | (with_reducible refine fine_ints ?_; decide +kernel)
  | (with_reducible refine fine_intRows ?_; decide +kernel)
  | (with_reducible refine good_struct ?_ ?_)
  | decide +kernel))

/-! ### The structures -/

theorem svcHeader_good (x : SvcHeaderExt) : Good (svcHeaderItem x) := by unfold svcHeaderItem; fine
theorem header_good (x : NalHeader) : Good (headerItem x) := by
  unfold headerItem; fine
  exact fine_part svcHeader_good fun _ => rfl
theorem hrd_good (x : Hrd) : Good (hrdItem x) := by unfold hrdItem; fine
theorem vui_good (x : Vui) : Good (vuiItem x) := by
  unfold vuiItem; fine
  · exact fine_part hrd_good fun _ => rfl
  · exact fine_part hrd_good fun _ => rfl
theorem spsData_good (opts : ParsingOptions) (x : SpsData) : Good (spsDataItem opts x) := by
  unfold spsDataItem; fine
  · refine fine_one ⟨by decide +kernel, ?_⟩ rfl
    cases x.getProfileType <;> exact ⟨by decide +kernel, by decide +kernel⟩
  · exact fine_part vui_good fun _ => rfl
theorem sps_good (opts : ParsingOptions) (x : SpsData) : Good (spsItem opts x) := by
  unfold spsItem; fine
  exact fine_one (spsData_good opts x) rfl
theorem pps_good (x : Pps) : Good (ppsItem x) := by unfold ppsItem; fine
theorem spsSvc_good (cat : Nat) (x : SpsSvcExt) : Good (spsSvcItem cat x) := by unfold spsSvcItem; fine
theorem subsetSps_good (opts : ParsingOptions) (x : SubsetSps) : Good (subsetSpsItem opts x) := by
  unfold subsetSpsItem; fine
  · exact fine_one (spsData_good opts _) rfl
  · exact fine_part (spsSvc_good _) fun _ => rfl
theorem mod_good (x : RefPicListMod) : Good (modItem x) := by unfold modItem; fine
theorem marking_good (idr : Nat) (x : DecRefPicMarking) : Good (markingItem idr x) := by unfold markingItem; fine
theorem weights_good (cat t : Nat) (x : PredWeightTable) : Good (weightsItem cat t x) := by unfold weightsItem; fine
theorem sliceHeader_good (ref type : Nat) (s : SpsData) (p : Pps) (x : SliceHeader) : Good (sliceHeaderItem ref type s p x) := by
  unfold sliceHeaderItem; fine
  · exact fine_part mod_good fun _ => rfl
  · exact fine_part (weights_good _ _) fun _ => rfl
  · exact fine_part (marking_good _) fun _ => rfl
theorem scalHeader_good (c : ScalCtx) (x : ScalHeader) : Good (scalHeaderItem c x) := by
  unfold scalHeaderItem; fine
  · exact fine_part mod_good fun _ => rfl
  · exact fine_part (weights_good _ _) fun _ => rfl
  · exact fine_part (marking_good _) fun _ => rfl
theorem sliceHeaderIn_fine (σ : Store) (n : NalHeader) (x : SliceHeader) : Fine (sliceHeaderIn σ n x) :=
  fine_part (fun _ => sliceHeader_good _ _ _ _ x) fun _ => rfl
theorem scalHeaderIn_fine (σ : Store) (n : NalHeader) (x : ScalHeader) : Fine (scalHeaderIn σ n x) :=
  fine_part (fun c => scalHeader_good c x) fun _ => rfl
theorem sliceLayer_good (σ : Store) (n : NalHeader) (x : SliceLayer) : Good (sliceLayerItem σ n x) := by
  unfold sliceLayerItem; fine
  split
  · exact sliceHeaderIn_fine _ _ _
  · exact fine_nil
theorem sliceLayerExt_good (σ : Store) (n : NalHeader) (x : SliceLayerExt) : Good (sliceLayerExtItem σ n x) := by
  unfold sliceLayerExtItem; fine
  · split
    · exact scalHeaderIn_fine _ _ _
    · exact fine_one trivial rfl
  · split
    · exact sliceHeaderIn_fine _ _ _
    · exact fine_nil
theorem prefixSvc_good (x : PrefixSvc) : Good (prefixSvcItem x) := by unfold prefixSvcItem; fine
theorem prefix_good (x : PrefixRbsp) : Good (prefixItem x) := by
  unfold prefixItem; fine
  exact fine_part prefixSvc_good fun _ => rfl
theorem payload_good (σ : Store) (opts : ParsingOptions) (n : NalHeader) (x : Payload) : Good (payloadItem σ opts n x) := by
  unfold payloadItem; fine
  split
  · exact fine_line (sliceLayer_good σ n) fun _ => rfl
  split
  · exact fine_line (sps_good opts) fun _ => rfl
  split
  · exact fine_line pps_good fun _ => rfl
  split
  · exact fine_line prefix_good fun _ => rfl
  split
  · exact fine_line (subsetSps_good opts) fun _ => rfl
  split
  · exact fine_line (sliceLayerExt_good σ n) fun _ => rfl
  · exact fine_one trivial rfl
theorem nalUnit_good (σ : Store) (opts : ParsingOptions) (bytes : List UInt8) (x : NalUnit) : Good (nalUnitItem σ opts bytes x) := by
  unfold nalUnitItem; fine
  · exact good_field (by decide +kernel) (hex_word _)
  · exact good_field (by decide +kernel) (hex_word _)
  · exact good_field (by decide +kernel) (hex8_word _)
  · exact fine_one (header_good _) rfl
  · exact fine_one (payload_good _ _ _ _) rfl
theorem nalUnits_good (opts : ParsingOptions) (bytes : NalUnit → List UInt8) : ∀ (σ : Store) (ns : List NalUnit),
    ∀ i ∈ nalUnitItems opts bytes σ ns, Good i
  | _, [], i, h => by simp [nalUnitItems] at h
  | σ, n :: ns, i, h => by
    rw [nalUnitItems] at h
    rcases List.mem_cons.mp h with rfl | h
    · exact nalUnit_good _ _ _ _
    · exact nalUnits_good opts bytes _ ns i h

/-! ### RTP -/

theorem rtpSingle_good (σ : Store) (opts : ParsingOptions) (x : RtpSingle) : Good (rtpSingleItem σ opts x) := by
  unfold rtpSingleItem; fine
  · exact fine_one (header_good _) rfl
  · exact fine_one (payload_good _ _ _ _) rfl
theorem stapAItems_fine (opts : ParsingOptions) : ∀ (σ : Store) (us : List (Nat × NalHeader × Payload)), Fine (stapAItems opts σ us)
  | _, [] => fine_nil
  | σ, (size, h, p) :: us => by
    rw [stapAItems, show ∀ b c : List Item, nat "nal_unit_size" size ++ b ++ c = [nat "nal_unit_size" size, b, c].flatten by simp]
    refine fine_cons (fine_nat (by decide +kernel)) (fine_cons ?_ (fine_cons (stapAItems_fine opts _ us) fine_nil))
    exact fine_cons (a := [headerItem h]) (bs := [[payloadItem σ opts h p]]) (fine_one (header_good _) rfl)
      (fine_cons (fine_one (payload_good _ _ _ _) rfl) fine_nil)
theorem stapA_good (σ : Store) (opts : ParsingOptions) (x : RtpStapA) : Good (stapAItem σ opts x) := by
  unfold stapAItem; fine
  · exact fine_one (header_good _) rfl
  · exact stapAItems_fine _ _ _
theorem fuA_good (σ : Store) (opts : ParsingOptions) (ref : Nat) (x : RtpFuA) : Good (fuAItem σ opts ref x) := by
  unfold fuAItem; fine
  · exact fine_one (header_good _) rfl
  · exact fine_part (payload_good _ _ _) fun _ => rfl

theorem joined_good {name : String} {is : List (List Item)} (h : Good (struct name is)) : Good (joinedTo (struct name is)) := h

theorem rtp_good (σ : Store) (opts : ParsingOptions) (x : Rtp) : Good (rtpItem σ opts x) := by
  unfold rtpItem
  refine ⟨by decide +kernel, ?_⟩
  have h1 : ∀ i, Good i → Goods [headerItem x.nal_unit_header, i] := by
    intro i hi
    exact ⟨header_good _, ⟨hi, trivial, by simp [startsJoined]⟩, fun _ => rfl⟩
  have h0 : Goods [headerItem x.nal_unit_header] := ⟨header_good _, trivial, by simp [startsJoined]⟩
  have hs : ∀ y, Good (joinedTo (rtpSingleItem σ opts y)) := fun y => rtpSingle_good σ opts y
  have ha : ∀ y, Good (joinedTo (stapAItem σ opts y)) := fun y => stapA_good σ opts y
  have hf : ∀ y, Good (joinedTo (fuAItem σ opts x.nal_unit_header.nal_ref_idc y)) := fun y => fuA_good σ opts _ y
  by_cases t1 : x.nal_unit_header.nal_unit_type ≤ 23
  · have t2 : ¬ x.nal_unit_header.nal_unit_type = 24 := by omega
    have t3 : ¬ x.nal_unit_header.nal_unit_type = 28 := by omega
    simp only [Shown.opt, if_pos t1, if_neg t2, if_neg t3]
    cases x.rtp_single with
    | none => exact h0
    | some y => exact h1 _ (hs y)
  · by_cases t2 : x.nal_unit_header.nal_unit_type = 24
    · have t3 : ¬ x.nal_unit_header.nal_unit_type = 28 := by omega
      simp only [Shown.opt, if_neg t1, if_pos t2, if_neg t3]
      cases x.rtp_stapa with
      | none => exact h0
      | some y => exact h1 _ (ha y)
    · by_cases t3 : x.nal_unit_header.nal_unit_type = 28
      · simp only [Shown.opt, if_neg t1, if_neg t2, if_pos t3]
        cases x.rtp_fua with
        | none => exact h0
        | some y => exact h1 _ (hf y)
      · simp only [Shown.opt, if_neg t1, if_neg t2, if_neg t3]
        exact h0

end H264
