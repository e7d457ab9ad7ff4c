import Verif.Props.BeginningSps
import Verif.Props.Malformed

/-
How much of a NAL unit is needed to read an SPS with scaling lists: C91.
-/

namespace H264.Props
open H264.Spec Prog

/-! ### Where reading goes on after a value that is cut off -/

/-- Bits at the end of a delta_scale that is cut off. -/
def CutOff (m : List Bool) : Prop := ∃ (d : Int) (l e : List Bool) (j : Nat), -128 ≤ d ∧ d ≤ 127 ∧ l ++ e = encSE d ∧ e ≠ [] ∧ m = l.drop j

theorem CutOff.drop {m : List Bool} (h : CutOff m) (i : Nat) : CutOff (m.drop i) := by
  obtain ⟨d, l, e, j, h1, h2, h3, h4, rfl⟩ := h
  exact ⟨d, l, e, j + i, h1, h2, h3, h4, by rw [List.drop_drop]⟩

theorem dropWhile_drop (l : List Bool) : ∃ j, l.dropWhile (fun b => !b) = l.drop j := by
  induction l with
  | nil => exact ⟨0, rfl⟩
  | cons b l ih =>
    cases b with
    | true => exact ⟨0, rfl⟩
    | false => obtain ⟨j, hj⟩ := ih; exact ⟨j + 1, by simpa using hj⟩

theorem afterUnreadable_drop (nd : Bool) (l : List Bool) : ∃ j, afterUnreadable nd l = l.drop j := by
  unfold afterUnreadable
  split
  · exact dropWhile_drop l
  · exact ⟨0, rfl⟩

theorem listRead_drop {nd : Bool} {n last next : Nat} {l r : List Bool} {out : List Nat} {ds : List Int} {ok : Bool}
    (h : ListRead nd n last next l r out ds ok) : ∃ j, r = l.drop j := by
  induction h with
  | done => exact ⟨0, rfl⟩
  | @read _ _ _ d l _ _ _ _ _ _ _ _ _ _ _ _ ih =>
    obtain ⟨j, rfl⟩ := ih
    exact ⟨(encSE d).length + j, by rw [← List.drop_drop, List.drop_left]⟩
  | keep _ ih => exact ih
  | @outOfRange _ _ _ d r => exact ⟨(encSE d).length, by rw [List.drop_left]⟩
  | unreadable => exact afterUnreadable_drop _ _

theorem listsRead_drop {nd : Bool} {n i : Nat} {s s' : Scal} {l r : List Bool} (h : ListsRead nd n i s l r s') : ∃ j, r = l.drop j := by
  induction h with
  | done => exact ⟨0, rfl⟩
  | @absent _ _ _ _ l _ _ ih => obtain ⟨j, rfl⟩ := ih; exact ⟨(encU 1 0).length + j, by rw [← List.drop_drop, List.drop_left]⟩
  | @present _ _ _ _ l _ _ _ _ _ h1 _ ih =>
    obtain ⟨j, rfl⟩ := ih
    obtain ⟨i, rfl⟩ := listRead_drop h1
    exact ⟨(encU 1 1).length + (i + j), by rw [← List.drop_drop, List.drop_left, List.drop_drop]⟩

theorem encSE_same {d e : Int} {r s : List Bool} (hd : seRange d) (he : seRange e) (h : encSE d ++ r = encSE e ++ s) : d = e ∧ r = s := by
  have h1 := Codec.se.parse_append false hd r 0
  rw [h, Codec.se.parse_append false he s 0] at h1
  simp only [Out.ok.injEq, LSt.mk.injEq, and_true] at h1
  exact ⟨h1.1.symm, h1.2.symm⟩

theorem seRange_small {d : Int} (h1 : -128 ≤ d) (h2 : d ≤ 127) : seRange d := by unfold seRange; omega

/-- The beginning of a well-formed list is read as that list, or reading goes on within a value that is cut off. -/
theorem listRead_begin {nd : Bool} {n last next : Nat} {a m : List Bool} {out : List Nat} {ds : List Int} {ok : Bool}
    (h : ListRead nd n last next a m out ds ok) {Ds : List Int} {Out : List Nat} (hw : ScalingList n last next Ds Out)
    {t R : List Bool} (e : a ++ t = encDeltas Ds ++ R) : m ++ t = R ∨ CutOff m := by
  induction h generalizing Ds Out with
  | done => cases hw; left; simpa [encDeltas] using e
  | @read _ _ _ d l _ _ ns en _ _ hn h1 h2 h3 h4 _ ih =>
    cases hw with
    | @read _ _ _ d' ds' ns' en' out' _ g1 g2 g3 g4 g5 =>
      simp only [encDeltas, List.flatMap_cons, List.append_assoc] at e
      obtain ⟨rfl, e2⟩ := encSE_same (seRange_small h1 h2) (seRange_small g1 g2) e
      have : ns = ns' := by omega
      subst this
      rw [← g4] at h4
      subst h4
      exact ih g5 e2
    | keep => exact absurd rfl hn
  | keep _ ih =>
    cases hw with
    | read hn => exact absurd rfl hn
    | keep g => exact ih g e
  | @outOfRange _ _ _ d r hn h1 h2 =>
    cases hw with
    | @read _ _ _ d' ds' ns' en' out' _ g1 g2 g3 g4 g5 =>
      simp only [encDeltas, List.flatMap_cons, List.append_assoc] at e
      obtain ⟨rfl, _⟩ := encSE_same h1 (seRange_small g1 g2) e
      exact absurd ⟨g1, g2⟩ h2
    | keep => exact absurd rfl hn
  | @unreadable _ _ _ l hn h1 =>
    cases hw with
    | @read _ _ _ d' ds' ns' en' out' _ g1 g2 g3 g4 g5 =>
      right
      simp only [encDeltas, List.flatMap_cons, List.append_assoc] at e
      obtain ⟨j, hj⟩ := afterUnreadable_drop nd l
      rcases List.append_eq_append_iff.mp e with ⟨x, hx, _⟩ | ⟨x, hx, _⟩
      · refine ⟨d', l, x, j, g1, g2, hx.symm, ?_, hj⟩
        rintro rfl
        exact h1 d' [] (seRange_small g1 g2) (by rw [hx]; simp)
      · exact absurd hx (h1 d' x (seRange_small g1 g2))
    | keep => exact absurd rfl hn

/-- Same for all lists. -/
theorem listsRead_begin {nd : Bool} {n i : Nat} {s s' : Scal} {a m : List Bool} (h : ListsRead nd n i s a m s')
    {ls : List (Option SL)} (hl : ls.length = n) (ok : ListsOk i ls) {t R : List Bool} (e : a ++ t = encLists ls ++ R) :
    m ++ t = R ∨ CutOff m := by
  induction h generalizing ls with
  | done =>
    cases ls with
    | nil => left; simpa [encLists] using e
    | cons => cases hl
  | absent _ ih =>
    cases ls with
    | nil => cases hl
    | cons x ls =>
      cases x with
      | none =>
        simp only [encLists, List.append_assoc, List.append_cancel_left_eq] at e
        exact ih (by simpa using hl) ok e
      | some x => simp [encLists, encU] at e
  | @present _ _ _ _ l m r out ds okk h1 h2 ih =>
    cases ls with
    | nil => cases hl
    | cons x ls =>
      cases x with
      | none => simp [encLists, encU] at e
      | some x =>
        simp only [encLists, List.append_assoc, List.append_cancel_left_eq] at e
        rcases listRead_begin h1 (by have := ok.1; unfold SL.Ok at this; exact this) e with e2 | hc
        · exact ih (by simpa using hl) ok.2 e2
        · obtain ⟨j, rfl⟩ := listsRead_drop h2
          exact Or.inr (hc.drop j)

/-- What is left of a value that is cut off is short: it does not have ten bits more than the zeros it starts with, counted twice. -/
theorem CutOff.short {m : List Bool} (h : CutOff m) {k : Nat} (hb : m[k]? = some true) (ht : 2 * k + 10 ≤ m.length) : False := by
  obtain ⟨d, l, e, j, h1, h2, h3, h4, rfl⟩ := h
  have hc : seCode d < 511 := by unfold seCode; split <;> omega
  unfold encSE at h3
  generalize seCode d = v at h3 hc
  have hk : Nat.log2 (v + 1) < 9 := (Nat.log2_lt (by omega)).mpr (by omega)
  have hlen := congrArg List.length h3
  rw [length_encUE, List.length_append] at hlen
  have he : 0 < e.length := List.length_pos_iff.mpr h4
  rw [List.length_drop] at ht
  rw [List.getElem?_drop] at hb
  have hq : Nat.log2 (v + 1) ≤ j + k := by
    refine Nat.le_of_not_lt fun hlt => ?_
    have hz : (l ++ e)[j + k]? = some false := by
      rw [h3]; unfold encUE
      rw [List.getElem?_append_left (by rw [List.length_replicate]; exact hlt), List.getElem?_replicate, if_pos hlt]
    rw [List.getElem?_append_left (by omega), hb] at hz
    cases hz
  omega

theorem ue_bit (v : Nat) (r : List Bool) : (encUE v ++ r)[Nat.log2 (v + 1)]? = some true := by
  unfold encUE
  rw [List.append_assoc, List.getElem?_append_right (by simp)]
  simp

/-- It is too short for the rest of an SPS. -/
theorem CutOff.not_tail {m : List Bool} (h : CutOff m) (t : SpsTail) (r : List Bool) (e : m = encSpsTail t ++ r) : False := by
  have hl := congrArg List.length e
  unfold encSpsTail at e hl
  simp only [List.append_assoc] at e
  simp only [List.length_append, length_encUE, length_encU] at hl
  refine h.short (k := Nat.log2 (t.log2_max_frame_num_minus4 + 1)) ?_ (by omega)
  rw [e]
  exact ue_bit _ _

theorem tail_same {h : SpsHead} (ok : h.Ok) {a b : SpsTail} (oa : a.Ok h) (ob : b.Ok h) {r s : List Bool}
    (e : encSpsTail a ++ r = encSpsTail b ++ s) : r = s := by
  have h1 := (codec_spsTail ok).parse_append false oa r 0
  have h2 := (codec_spsTail ok).parse_append false ob s 0
  rw [e] at h1
  have h3 := h2.symm.trans h1
  simp only [Out.ok.injEq, LSt.mk.injEq, and_true] at h3
  exact h3.2.symm

theorem head_same {a b : SpsHead} (oa : a.Ok) (ob : b.Ok) {r s : List Bool} (e : encSpsHead a ++ r = encSpsHead b ++ s) : a = b ∧ r = s := by
  have h1 := codec_spsHead.parse_append false oa r 0
  have h2 := codec_spsHead.parse_append false ob s 0
  rw [e, h2] at h1
  injection h1 with h0 h3
  injection h3 with h4
  exact ⟨h0.symm, h4.symm⟩

/-- A beginning of a well-formed SPS that gives an SPS has all its fields. -/
theorem sps_begin {nd : Bool} {a : List Bool} {c : Nat} {st : SpsData} {s' : LSt} (h : runL nd parseSps ⟨a, c⟩ = .ok st s')
    {x : SpsSyn} (ok : x.Ok) {t R : List Bool} (e : a ++ t = encSps x ++ R) : ∃ r, a = encSps x ++ r := by
  obtain ⟨s2, h2⟩ := (sps_iff nd _ _).mp ⟨s', h⟩
  obtain ⟨r, ⟨o1, o2, l1, l2, h3, hl, h4⟩, _⟩ := (spsData_iff nd _ _ _ _).mp h2
  generalize st.toSpsHead = hd at *
  generalize st.toSpsTail = tl at *
  have e1 : encSpsHead hd ++ (l1 ++ t) = encSpsHead x.head ++ (encLists x.lists ++ (encSpsTail x.tail ++ R)) := by
    rw [← List.append_assoc, ← h3, e]
    unfold encSps
    simp only [List.append_assoc]
  obtain ⟨e2, e3⟩ := head_same o1 ok.head e1
  subst e2
  rcases listsRead_begin hl ok.count ok.lists e3 with e4 | hc
  · rw [h4, List.append_assoc] at e4
    have e5 := tail_same o1 o2 ok.tail e4
    rw [← e5, ← List.append_assoc] at e
    exact ⟨r, List.append_cancel_right e⟩
  · exact (hc.not_tail _ _ h4).elim

/-! ### C91 -/

/-- C91: an SPS whose scaling lists are well-formed is found in the first `m` bytes of its NAL unit if and only if these contain,
besides the emulation prevention bytes, the header byte and all bits of the fields of the SPS.  A shorter beginning gives no SPS, never
a wrong one, although the library ignores a value of a scaling list that is cut off. -/
theorem C91_exactly_lists_partial {nd : Bool} {opts : ParsingOptions} {data : List UInt8} (hl : data.length < 2 ^ 32) {off k : Nat}
    (hk : off + k ≤ data.length) {σ : Store} {c : Nat} {n : NalUnit} {σ' : Store} {c' : Nat}
    (he : parseNalUnit nd opts data off k σ c = .val (some n, σ', c')) {st : SpsData} (hs : n.nal_unit_payload.sps = some st)
    (hm : ¬ MalformedSps ((allBits (withoutEmulation ((data.drop off).take k))).drop 8)) :
    ∃ x : SpsSyn, x.Ok ∧ st = x.state ∧
      (∃ r, (allBits (withoutEmulation ((data.drop off).take k))).drop 8 = encSps x ++ r) ∧
      ∀ m, m ≤ k →
        if 8 + (encSps x).length ≤ 8 * (withoutEmulation ((data.drop off).take m)).length then
          ∃ n1, parseNalUnit nd opts data off m σ c = .val (some n1, σ', c') ∧ n1.nal_unit_header = n.nal_unit_header ∧
            n1.nal_unit_payload = n.nal_unit_payload
        else ∀ n1 σ1 c1, parseNalUnit nd opts data off m σ c = .val (some n1, σ1, c1) → n1.nal_unit_payload.sps = none := by
  rw [parseNalUnit_begin hl hk] at he
  rw [← strip_eq] at hm ⊢
  obtain ⟨h, x, hb, rfl⟩ := spsBits_of_wellFormed he hs hm
  obtain ⟨n0, g1, g2, g3⟩ := nalUnitL_sps (nd := nd) opts σ hb c
  rw [g1] at he
  simp only [Res.val.injEq, Prod.mk.injEq, Option.some.injEq] at he
  obtain ⟨rfl, rfl, rfl⟩ := he
  have hh : (encNalHeader h).length = 8 := by
    unfold encNalHeader
    have hn : ¬ (h.nal_unit_type = 14 ∨ h.nal_unit_type = 20) := by have := hb.type; omega
    rw [if_neg hn]; simp
  obtain ⟨r, hr⟩ := hb.bits
  refine ⟨x, hb.sps, rfl, ⟨r, by rw [hr, ← hh, List.drop_left]⟩, ?_⟩
  intro m hmk
  rw [parseNalUnit_begin hl (by omega), ← strip_eq]
  obtain ⟨s, e⟩ := strip_begin (data.drop off) hmk
  rw [e, allBits_append] at hb hr
  split
  · rename_i hle
    obtain ⟨n1, k1, k2, k3⟩ := nalUnitL_sps (nd := nd) opts σ (hb.less (by rw [length_allBits, hh]; exact hle)) c
    exact ⟨n1, k1, k2.trans g2.symm, k3.trans g3.symm⟩
  · rename_i hlt
    intro n1 σ1 c1 h1
    cases hx1 : n1.nal_unit_payload.sps with
    | none => rfl
    | some st1 =>
      exfalso
      obtain ⟨h2, r2, s1, o2, _, b2, p2⟩ := sps_nalUnitL h1 hx1
      have hh2 := congrArg List.length b2
      rw [b2, List.append_assoc] at hr
      have e1 := codec_nalHeader.parse_append nd o2 (r2 ++ allBits s) 0
      have e2 := codec_nalHeader.parse_append nd hb.header (encSps x ++ r) 0
      rw [hr] at e1
      have e3 := e2.symm.trans e1
      simp only [Out.ok.injEq, LSt.mk.injEq, and_true] at e3
      obtain ⟨r3, hr3⟩ := sps_begin p2 hb.sps e3.2.symm
      rw [length_allBits, List.length_append, hr3, List.length_append, ← e3.1, hh] at hh2
      omega

/-! ### Examples -/

/-- The fields of this well-formed SPS with scaling lists end in the seventeenth byte, where it ends.  Its first eight bytes end among the
scaling lists. -/
example (nd : Bool) : (∃ r, (do
    let x ← parseNalUnit nd {} exStapSpsNal 0 17 {} 0
    let y ← parseNalUnit nd {} exStapSpsNal 0 16 {} 0
    let z ← parseNalUnit nd {} exStapSpsNal 0 8 {} 0
    pure [x, y, z]) = .val r ∧
    r.map (fun n => (n.1.bind (·.nal_unit_payload.sps)).map fun s => s.log2_max_frame_num_minus4) = [some 4, none, none]) ∧
    8 + (encSps exStapSps).length = 129 := by
  cases nd <;> exact ⟨exists_dec (by decide +kernel), by decide +kernel⟩

end H264.Props
