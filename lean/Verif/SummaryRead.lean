import Verif.SummaryText
import Verif.Spec.SummaryScript

/-
What the summarising script reads from the text of NAL units.
-/

namespace H264.Summary
open H264.Shown H264.Script

/-! ### Names the script does not look for -/

/-- The fields the script looks for. -/
def fkeys : List (List Char) :=
  ["nal_unit_type", "profile_idc", "constraint_set3_flag", "profile", "level_idc", "width", "height"].map String.toList
/-- The names before a brace the script looks for. -/
def okeys : List (List Char) := ["nal_unit", "slice_header", "slice_header_in_scalable_extension", "sps_data"].map String.toList

def cleanField (name : String) : Bool := fkeys.all fun k => !ends k false name.toList
def cleanOpen (name : String) : Bool := okeys.all fun k => !k.isSuffixOf name.toList

/-- The script does not look for any of this. -/
def Clean (ts : List Tok) : Prop := ∀ t ∈ ts, match t with
  | .field name _ => cleanField name = true
  | .opens name => cleanOpen name = true

theorem Clean.vals {ts : List Tok} (h : Clean ts) {key : List Char} (hk : key ∈ fkeys) : vals key ts = [] := by
  induction ts with
  | nil => rfl
  | cons t ts ih =>
    have ih := ih fun x hx => h x (by simp [hx])
    have ht := h t (by simp)
    cases t with
    | opens name => rw [vals_opens, ih]
    | field name value =>
      rw [show Tok.field name value :: ts = [.field name value] ++ ts from rfl, vals_append, ih, vals_field]
      dsimp only at ht
      unfold cleanField at ht
      rw [List.all_eq_true] at ht
      have := ht key hk
      rw [if_neg (by simpa using this)]
      rfl

theorem Clean.opensN {ts : List Tok} (h : Clean ts) {key : List Char} (hk : key ∈ okeys) : opensN key ts = 0 := by
  unfold Summary.opensN
  rw [List.countP_eq_zero]
  intro t ht
  have := h t ht
  cases t with
  | field name value => simp
  | opens name =>
    dsimp only at this ⊢
    unfold cleanOpen at this
    rw [List.all_eq_true] at this
    have := this key hk
    rw [Bool.not_eq_true'] at this
    rw [this]; simp

theorem clean_append {a b : List Tok} (ha : Clean a) (hb : Clean b) : Clean (a ++ b) := by
  intro t ht
  rcases List.mem_append.mp ht with h | h
  · exact ha t h
  · exact hb t h
theorem clean_opens {name : String} {ts : List Tok} (hn : cleanOpen name = true) (h : Clean ts) : Clean (.opens name :: ts) := by
  intro t ht
  rcases List.mem_cons.mp ht with rfl | ht
  · exact hn
  · exact h t ht

theorem toksIn_append (a b : List Item) : toksIn (a ++ b) = toksIn a ++ toksIn b := by
  induction a with
  | nil => rfl
  | cons i a ih => rw [List.cons_append, toksIn, toksIn, ih, List.append_assoc]
theorem toksIn_cons (a : List Item) (bs : List (List Item)) : toksIn (a :: bs).flatten = toksIn a ++ toksIn bs.flatten := by
  rw [List.flatten_cons, toksIn_append]
theorem toksIn_one (i : Item) : toksIn [i] = toks i := by rw [toksIn, toksIn, List.append_nil]
theorem toks_struct (name : String) (is : List (List Item)) : toks (struct name is) = .opens name :: toksIn is.flatten := by
  unfold struct; rw [toks]

theorem clean_nil : Clean (toksIn [].flatten) := by intro t ht; cases ht
theorem clean_cons {a : List Item} {bs : List (List Item)} (h : Clean (toksIn a)) (hs : Clean (toksIn bs.flatten)) :
    Clean (toksIn (a :: bs).flatten) := by rw [toksIn_cons]; exact clean_append h hs
theorem clean_field {name : String} {v : List Char} (h : cleanField name = true) : Clean (toksIn [.field name v]) := by
  intro t ht
  rw [toksIn_one, toks] at ht
  rw [List.mem_singleton.mp ht]; exact h
theorem clean_nat {name : String} {v : Nat} (h : cleanField name = true) : Clean (toksIn (nat name v)) := clean_field h
theorem clean_int {name : String} {v : Int} (h : cleanField name = true) : Clean (toksIn (int name v)) := clean_field h
theorem clean_mod32 {name : String} {v : Int} (h : cleanField name = true) : Clean (toksIn (mod32 name v)) := clean_field h
theorem clean_nats {name : String} {v : List Nat} (h : cleanOpen name = true) : Clean (toksIn (nats name v)) := clean_opens h clean_nil
theorem clean_ints {name : String} {v : List Int} (h : cleanOpen name = true) : Clean (toksIn (ints name v)) := clean_opens h clean_nil
theorem clean_intRows {name : String} {v : List (List Int)} (h : cleanOpen name = true) : Clean (toksIn (intRows name v)) := clean_opens h clean_nil
theorem clean_opt {c : Prop} [Decidable c] {is : List (List Item)} (h : Clean (toksIn is.flatten)) : Clean (toksIn (Shown.opt c is)) := by
  unfold Shown.opt
  split
  · exact h
  · exact clean_nil
theorem clean_part {α : Type} {x : Option α} {f : α → Item} (h : ∀ a, Clean (toks (f a))) : Clean (toksIn (part x f)) := by
  cases x with
  | none => exact clean_nil
  | some a => rw [part, toksIn_one]; exact h a
theorem clean_struct {name : String} {is : List (List Item)} (hn : cleanOpen name = true) (h : Clean (toksIn is.flatten)) :
    Clean (toks (struct name is)) := by rw [toks_struct]; exact clean_opens hn h

/-- Steps through a list of items. -/
macro "clean" : tactic => `(tactic| repeat' (first
  | with_reducible exact clean_nil
  | with_reducible refine clean_cons ?_ ?_
  | with_reducible refine clean_opt ?_
  | (with_reducible refine clean_nat ?_; decide +kernel)
  | (with_reducible refine clean_int ?_; decide +kernel)
  | (with_reducible refine clean_mod32 ?_; decide +kernel)
  | (with_reducible refine clean_nats ?_; decide +kernel)
  | (with_reducible refine clean_ints ?_; decide +kernel)
  | (with_reducible refine clean_intRows ?_; decide +kernel)
  | (with_reducible refine clean_field ?_; decide +kernel)
  | (with_reducible refine clean_struct ?_ ?_)
  | decide +kernel))

theorem svcHeader_clean (x : SvcHeaderExt) : Clean (toks (svcHeaderItem x)) := by unfold svcHeaderItem; clean
theorem hrd_clean (x : Hrd) : Clean (toks (hrdItem x)) := by unfold hrdItem; clean
theorem vui_clean (x : Vui) : Clean (toks (vuiItem x)) := by
  unfold vuiItem; clean
  all_goals exact clean_part hrd_clean
theorem pps_clean (x : Pps) : Clean (toks (ppsItem x)) := by unfold ppsItem; clean
theorem spsSvc_clean (cat : Nat) (x : SpsSvcExt) : Clean (toks (spsSvcItem cat x)) := by unfold spsSvcItem; clean
theorem mod_clean (x : RefPicListMod) : Clean (toks (modItem x)) := by unfold modItem; clean
theorem marking_clean (idr : Nat) (x : DecRefPicMarking) : Clean (toks (markingItem idr x)) := by unfold markingItem; clean
theorem weights_clean (cat t : Nat) (x : PredWeightTable) : Clean (toks (weightsItem cat t x)) := by unfold weightsItem; clean
theorem prefixSvc_clean (x : PrefixSvc) : Clean (toks (prefixSvcItem x)) := by unfold prefixSvcItem; clean
theorem prefix_clean (x : PrefixRbsp) : Clean (toks (prefixItem x)) := by
  unfold prefixItem; clean
  exact clean_part prefixSvc_clean

/-! ### Structures with something to be found -/

theorem toks_mid {name : String} {a b : List Item} {t : Item} {bs : List (List Item)} : toks (struct name (a :: b :: [t] :: bs)) =
    (.opens name :: (toksIn a ++ toksIn b)) ++ (toks t ++ toksIn bs.flatten) := by
  rw [toks_struct, toksIn_cons, toksIn_cons, toksIn_cons, toksIn_one, List.cons_append, List.append_assoc]

theorem header_toks (n : NalHeader) : ∃ A B, Clean A ∧ Clean B ∧
    toks (headerItem n) = A ++ (.field "nal_unit_type" (toString n.nal_unit_type).toList :: B) := by
  refine ⟨_, _, ?_, ?_, toks_mid (t := .field "nal_unit_type" (toString n.nal_unit_type).toList)⟩
  · exact clean_opens (by decide +kernel) (clean_append (clean_nat (by decide +kernel)) (clean_nat (by decide +kernel)))
  · show Clean ([] ++ _)
    rw [List.nil_append]
    clean
    exact clean_part svcHeader_clean

theorem sliceHeader_toks (ref type : Nat) (s : SpsData) (p : Pps) (x : SliceHeader) : ∃ B, Clean B ∧
    toks (sliceHeaderItem ref type s p x) = .opens "slice_header" :: B := by
  unfold sliceHeaderItem
  rw [toks_struct]
  refine ⟨_, ?_, rfl⟩
  clean
  · exact clean_part mod_clean
  · exact clean_part (weights_clean _ _)
  · exact clean_part (marking_clean _)

theorem scalHeader_toks (c : ScalCtx) (x : ScalHeader) : ∃ B, Clean B ∧
    toks (scalHeaderItem c x) = .opens "slice_header_in_scalable_extension" :: B := by
  unfold scalHeaderItem
  rw [toks_struct]
  refine ⟨_, ?_, rfl⟩
  clean
  · exact clean_part mod_clean
  · exact clean_part (weights_clean _ _)
  · exact clean_part (marking_clean _)

theorem tail_cons {a : List Item} {bs : List (List Item)} {W : List Tok} (h : Clean (toksIn a)) (hs : ∃ R, Clean R ∧ toksIn bs.flatten = R ++ W) :
    ∃ R, Clean R ∧ toksIn (a :: bs).flatten = R ++ W := by
  obtain ⟨R, hr, e⟩ := hs
  exact ⟨toksIn a ++ R, clean_append h hr, by rw [toksIn_cons, e, List.append_assoc]⟩

theorem exists_tail {T W : List Tok} (f : List Tok → List Tok) (h : ∃ R, Clean R ∧ T = R ++ W) : ∃ R, Clean R ∧ f T = f (R ++ W) := by
  obtain ⟨R, hr, e⟩ := h
  exact ⟨R, hr, by rw [e]⟩

theorem spsData_toks {opts : ParsingOptions} (ho : opts.add_resolution = true) (x : SpsData) : ∃ R, Clean R ∧
    toks (spsDataItem opts x) = .opens "sps_data" :: .field "profile_idc" (toString x.profile_idc).toList ::
      .field "constraint_set0_flag" (toString x.constraint_set0_flag).toList ::
      .field "constraint_set1_flag" (toString x.constraint_set1_flag).toList ::
      .field "constraint_set2_flag" (toString x.constraint_set2_flag).toList ::
      .field "constraint_set3_flag" (toString x.constraint_set3_flag).toList ::
      .field "constraint_set4_flag" (toString x.constraint_set4_flag).toList ::
      .field "constraint_set5_flag" (toString x.constraint_set5_flag).toList ::
      .field "reserved_zero_2bits" (toString x.reserved_zero_2bits).toList ::
      .field "profile" (profileName x.getProfileType).toList ::
      .field "level_idc" (toString x.level_idc).toList ::
      (R ++ [.field "width" (toString (Spec.resolutionOf x).1).toList, .field "height" (toString (Spec.resolutionOf x).2).toList]) := by
  unfold spsDataItem
  rw [toks_struct, toksIn_cons, toksIn_cons, toksIn_cons, toksIn_cons, toksIn_cons, toksIn_cons, toksIn_cons, toksIn_cons, toksIn_cons,
    toksIn_cons]
  refine exists_tail (fun T => .opens "sps_data" :: .field "profile_idc" (toString x.profile_idc).toList ::
      .field "constraint_set0_flag" (toString x.constraint_set0_flag).toList ::
      .field "constraint_set1_flag" (toString x.constraint_set1_flag).toList ::
      .field "constraint_set2_flag" (toString x.constraint_set2_flag).toList ::
      .field "constraint_set3_flag" (toString x.constraint_set3_flag).toList ::
      .field "constraint_set4_flag" (toString x.constraint_set4_flag).toList ::
      .field "constraint_set5_flag" (toString x.constraint_set5_flag).toList ::
      .field "reserved_zero_2bits" (toString x.reserved_zero_2bits).toList ::
      .field "profile" (profileName x.getProfileType).toList ::
      .field "level_idc" (toString x.level_idc).toList :: T) ?_
  show ∃ R, Clean R ∧ [] ++ _ = _
  rw [List.nil_append]
  repeat (with_reducible refine tail_cons ?h ?_; case h => (clean; done))
  refine tail_cons (clean_opt (clean_cons (clean_part vui_clean) clean_nil)) ?_
  rw [Shown.opt, if_pos ho]
  exact ⟨[], clean_nil, rfl⟩

end H264.Summary
