import Verif.Codecs.Pps
import Verif.Spec.Malformed

/-
The scaling list loop does exactly what `ListsRead` says, on every input.
-/

namespace H264
open Prog

theorem afterUnreadable_eq (nd : Bool) : ∀ l : List Bool, ueFail nd l = afterUnreadable nd l := by
  intro l
  unfold ueFail afterUnreadable
  cases nd with
  | false => rfl
  | true =>
    simp only [if_true]
    induction l with
    | nil => rfl
    | cons a l ih =>
      cases a with
      | false => simp only [lz_false, List.drop_succ_cons, List.dropWhile_cons, Bool.not_false, if_true, ih]
      | true => simp only [lz_true, List.drop_zero, List.dropWhile_cons, Bool.not_true]; rfl

theorem ListRead.zero {nd : Bool} {n last : Nat} {l r : List Bool} {out : List Nat} {ds : List Int} {ok : Bool}
    (h : ListRead nd n last 0 l r out ds ok) : ds = [] ∧ ok = true ∧ out.length = n := by
  generalize hz : 0 = z at h
  induction h with
  | done => exact ⟨rfl, rfl, rfl⟩
  | read hn => exact absurd hz.symm hn
  | keep _ ih => obtain ⟨h1, h2, h3⟩ := ih rfl; exact ⟨h1, h2, by simp [h3]⟩
  | outOfRange hn => exact absurd hz.symm hn
  | unreadable hn => exact absurd hz.symm hn

/-- The state after the list. -/
def slAfter (i j last : Nat) (s : SLSt) (ds : List Int) (out : List Nat) : SLSt :=
  { list := s.list.take j ++ out ++ s.list.drop (j + out.length),
    useDef := match ds with
      | [] => s.useDef
      | d :: _ => if -128 ≤ d ∧ d ≤ 127 then
          setEntry s.useDef i (if j = 0 ∧ ((last : Int) + d + 256) % 256 = 0 then 1 else 0) else s.useDef,
    delta := ds.getLast?.getD s.delta }

theorem scalingLoop_read (nd : Bool) (i : Nat) {n last next : Nat} {l r : List Bool} {ds : List Int} {out : List Nat}
    {ok : Bool} (h : ListRead nd n last next l r out ds ok) : ∀ (j : Nat) (s : SLSt) (c : Nat), last ≤ 255 →
    j ≤ s.list.length →
    runL nd (scalingLoop i n j last next s) ⟨l, c⟩ = .ok (ok, slAfter i j last s ds out) ⟨r, c⟩ := by
  induction h with
  | done last next l =>
    intro j s c _ hj
    simp only [scalingLoop, Prog.pure_eq, runL_ret, slAfter, List.length_nil,
      List.append_nil, Nat.add_zero, List.take_append_drop, List.getLast?_nil, Option.getD_none]
  | @read n last next d l r ds nx entry out ok hn hd1 hd2 hnx he hrest ih =>
    intro j s c hl hj
    have hnx' : nx ≤ 255 := by omega
    have hent : entry ≤ 255 := by rw [he]; split <;> omega
    unfold scalingLoop
    rw [if_pos hn, runL_bind, runL_attempt]
    have hse := Codec.se.parse_append nd (a := d) ⟨by omega, by omega⟩ l c
    rw [hse]
    simp only [Out.bind]
    rw [if_neg (by omega), toI32_eq (by omega), sint_eq (by omega) (by omega), runL_bind, runL_lift_val]
    simp only [Out.bind]
    rw [sint_eq (by omega) (by omega), runL_bind, runL_lift_val]
    simp only [Out.bind, next_eq hl hd1 hd2 hnx, ← he]
    rw [ih (j + 1) _ c hent (by simp only [setGrow_eq, setEntry_eq_take _ _ _ hj]; simp; omega)]
    congr 2
    unfold slAfter
    simp only [setGrow_eq]
    congr 1
    · exact splice_eq _ _ _ _ _ hj
    · have hz : nx = 0 ↔ ((last : Int) + d + 256) % 256 = 0 := by omega
      rw [if_pos (show -128 ≤ d ∧ d ≤ 127 from ⟨hd1, hd2⟩)]
      cases ds with
      | nil => simp only [hz]
      | cons d2 ds =>
        have hne : nx ≠ 0 := by
          intro h0; rw [h0] at hrest
          exact absurd hrest.zero.1 (by simp)
        simp only [setEntry_setEntry, ← hz, hne, and_false, Nat.add_eq_zero_iff, Nat.one_ne_zero, false_and]
        split <;> rfl
    · cases ds with
      | nil => rfl
      | cons d2 ds => simp [List.getLast?_cons]
  | @keep n last l r ds out ok hrest ih =>
    intro j s c hl hj
    obtain ⟨rfl, rfl, -⟩ := hrest.zero
    unfold scalingLoop
    rw [if_neg (by simp)]
    rw [ih (j + 1) _ c hl (by simp only [setGrow_eq, setEntry_eq_take _ _ _ hj]; simp; omega)]
    congr 2
    unfold slAfter
    simp only [setGrow_eq]
    congr 1
    exact splice_eq _ _ _ _ _ hj
  | @outOfRange n last next d r hn hd hr =>
    intro j s c hl hj
    unfold scalingLoop
    rw [if_pos hn, runL_bind, runL_attempt, Codec.se.parse_append nd (a := d) hd r c]
    simp only [Out.bind]
    rw [if_pos (by omega)]
    simp only [Prog.pure_eq, runL_ret, slAfter, if_neg hr, List.length_nil,
      List.append_nil, Nat.add_zero, List.take_append_drop]
    rfl
  | @unreadable n last next l hn hu =>
    intro j s c hl hj
    have hse : runL nd se ⟨l, c⟩ = .null ⟨afterUnreadable nd l, c⟩ := by
      cases hx : runL nd se ⟨l, c⟩ with
      | bad e => exact absurd hx (Safe.se nd _ e)
      | ok d s1 =>
        obtain ⟨hd, r, h1, -⟩ := (Codec.se nd l c d s1).mp hx
        exact absurd h1 (hu d r hd)
      | null s1 =>
        rw [runL_se] at hx
        cases hd : ueDec l with
        | some p => simp [hd] at hx
        | none =>
          simp only [hd, Out.null.injEq] at hx
          rw [← hx, afterUnreadable_eq]
    unfold scalingLoop
    rw [if_pos hn, runL_bind, runL_attempt, hse]
    simp only [Out.bind, Prog.pure_eq, runL_ret, slAfter, List.length_nil,
      List.append_nil, Nat.add_zero, List.take_append_drop, List.getLast?_nil, Option.getD_none]

/-- Every bit string is read in some way. -/
theorem ListRead.total (nd : Bool) : ∀ (n last next : Nat) (l : List Bool), last ≤ 255 →
    ∃ r out ds ok, ListRead nd n last next l r out ds ok := by
  intro n
  induction n with
  | zero => intro last next l _; exact ⟨_, _, _, _, .done _ _ _⟩
  | succ n ih =>
    intro last next l hl
    by_cases hn : next = 0
    · subst hn
      obtain ⟨r, out, ds, ok, h⟩ := ih last 0 l hl
      exact ⟨_, _, _, _, .keep h⟩
    · by_cases hu : ∃ d r, seRange d ∧ l = encSE d ++ r
      · obtain ⟨d, r, hd, rfl⟩ := hu
        by_cases hr : -128 ≤ d ∧ d ≤ 127
        · obtain ⟨nx, hnx⟩ : ∃ nx : Nat, (nx : Int) = ((last : Int) + d + 256) % 256 :=
            ⟨(((last : Int) + d + 256) % 256).toNat, by omega⟩
          have hent : (if nx = 0 then last else nx) ≤ 255 := by split <;> omega
          obtain ⟨r', out, ds, ok, h⟩ := ih _ nx r hent
          exact ⟨_, _, _, _, .read hn hr.1 hr.2 hnx rfl h⟩
        · exact ⟨_, _, _, _, .outOfRange hn hd hr⟩
      · exact ⟨_, _, _, _, .unreadable hn (fun d r hd he => hu ⟨d, r, hd, he⟩)⟩

theorem scalingList_read (nd : Bool) (i size : Nat) {l r : List Bool} {ds : List Int} {out : List Nat}
    {ok : Bool} (h : ListRead nd size 8 8 l r out ds ok) (s : SLSt) (c : Nat) :
    runL nd (scalingList i size s) ⟨l, c⟩ =
      .ok (ok, ⟨out ++ s.list.drop out.length, flagsAfter s.useDef i ds, ds.getLast?.getD s.delta⟩) ⟨r, c⟩ := by
  unfold scalingList
  rw [scalingLoop_read nd i h 0 s c (by omega) (by omega)]
  unfold slAfter
  congr 2
  congr 1
  · simp
  · cases ds with
    | nil => rfl
    | cons d ds =>
      simp only [flagsAfter, true_and]
      have h8 : (-128 ≤ d ∧ d ≤ 127) → ((((8 : Nat) : Int) + d + 256) % 256 = 0 ↔ d = -8) := by omega
      by_cases hr : -128 ≤ d ∧ d ≤ 127
      · simp only [if_pos hr, h8 hr]
      · simp only [if_neg hr]

theorem scalingCall_read (nd : Bool) (i : Nat) {l r : List Bool} {ds : List Int} {out : List Nat}
    {ok : Bool} (h : ListRead nd (if i < 6 then 16 else 64) 8 8 l r out ds ok) (s : Scal) (c : Nat) :
    runL nd (scalingCall i { s with scaling_list_present_flag := s.scaling_list_present_flag ++ [1] }) ⟨l, c⟩ =
      .ok (storeList i s out ds) ⟨r, c⟩ := by
  unfold scalingCall storeList
  by_cases hi : i < 6
  · rw [if_pos hi] at h ⊢
    rw [if_pos hi, runL_bind, scalingList_read nd i 16 h]
    rfl
  · rw [if_neg hi] at h ⊢
    rw [if_neg hi, runL_bind, scalingList_read nd (i - 6) 64 h]
    rfl

theorem scalingLists_read (nd : Bool) {n i : Nat} {s s' : Scal} {l r : List Bool} (h : ListsRead nd n i s l r s') (c : Nat) :
    runL nd (scalingLists n i s) ⟨l, c⟩ = .ok s' ⟨r, c⟩ := by
  induction h with
  | done => rfl
  | absent _ ih =>
    unfold scalingLists
    rw [runL_bind, runL_flag nd (by omega)]
    simp only [Out.bind]
    rw [runL_bind]
    unfold opt
    rw [if_neg (by omega)]
    exact ih
  | present hl _ ih =>
    unfold scalingLists
    rw [runL_bind, runL_flag nd (by omega)]
    simp only [Out.bind]
    rw [runL_bind]
    unfold opt
    rw [if_pos (by omega), scalingCall_read nd _ hl]
    exact ih

/-- The loop over the scaling lists returns `s'` iff the bits are read that way. -/
theorem scalingLists_iff (nd : Bool) : ∀ (n i : Nat) (s s' : Scal) (l : List Bool) (c : Nat) (st : LSt),
    runL nd (scalingLists n i s) ⟨l, c⟩ = .ok s' st ↔ ∃ r, ListsRead nd n i s l r s' ∧ st = ⟨r, c⟩ := by
  intro n i s s' l c st
  constructor
  · induction n generalizing i s l with
    | zero =>
      intro h
      simp only [scalingLists, Prog.pure_eq, runL_ret, Out.ok.injEq] at h
      obtain ⟨rfl, rfl⟩ := h
      exact ⟨l, .done _ _ _, rfl⟩
    | succ n ih =>
      intro h
      unfold scalingLists at h
      rw [runL_bind_ok] at h
      obtain ⟨f, s1, hf, h⟩ := h
      obtain ⟨hf2, r, rfl, rfl⟩ := ((Codec.u (n := 1) (by omega) (by omega)) nd l c f s1).mp hf
      rw [runL_bind_ok] at h
      obtain ⟨sc, s2, hsc, h⟩ := h
      unfold opt at hsc
      by_cases hf0 : f = 0
      · subst hf0
        rw [if_neg (by omega)] at hsc
        simp only [Prog.pure_eq, runL_ret, Out.ok.injEq] at hsc
        obtain ⟨rfl, rfl⟩ := hsc
        obtain ⟨r', h1, h2⟩ := ih _ _ _ h
        exact ⟨r', .absent h1, h2⟩
      · have hf1 : f = 1 := by omega
        subst hf1
        rw [if_pos (by omega)] at hsc
        obtain ⟨m, out, ds, ok, hl⟩ := ListRead.total nd (if i < 6 then 16 else 64) 8 8 r (by omega)
        rw [scalingCall_read nd i hl] at hsc
        simp only [Out.ok.injEq] at hsc
        obtain ⟨rfl, rfl⟩ := hsc
        obtain ⟨r', h1, h2⟩ := ih _ _ _ h
        exact ⟨r', .present hl h1, h2⟩
  · rintro ⟨r, h, rfl⟩
    exact scalingLists_read nd h c

/-- `ListRead` extends `ScalingList`. -/
theorem listRead_iff_ok (nd : Bool) {n last next : Nat} {l r : List Bool} {out : List Nat} {ds : List Int} :
    ListRead nd n last next l r out ds true ↔ ScalingList n last next ds out ∧ l = encDeltas ds ++ r := by
  constructor
  · intro h
    generalize ht : true = t at h
    induction h with
    | done => exact ⟨.done _ _, rfl⟩
    | read hn h1 h2 h3 h4 _ ih =>
      obtain ⟨g1, rfl⟩ := ih ht
      exact ⟨.read hn h1 h2 h3 h4 g1, by simp [encDeltas]⟩
    | keep _ ih =>
      obtain ⟨g1, g2⟩ := ih ht
      exact ⟨.keep g1, g2⟩
    | outOfRange => exact absurd ht (by simp)
    | unreadable => exact absurd ht (by simp)
  · rintro ⟨h, rfl⟩
    induction h with
    | done => exact .done _ _ _
    | @read n last next d ds _ _ _ hn h1 h2 h3 h4 _ ih =>
      rw [show encDeltas (d :: ds) ++ r = encSE d ++ (encDeltas ds ++ r) by simp [encDeltas]]
      exact .read hn h1 h2 h3 h4 ih
    | keep _ ih => exact .keep ih

theorem spsData_iff (nd : Bool) (l : List Bool) (c : Nat) (st : SpsData) (s' : LSt) :
    runL nd parseSpsData ⟨l, c⟩ = .ok st s' ↔ ∃ r, SpsRead nd st l r ∧ s' = ⟨r, c⟩ := by
  have count : ∀ (hd : SpsHead), hd.Ok → ∀ (l1 : List Bool) (sc : Scal) (s2 : LSt),
      (runL nd (opt (hd.seq_scaling_matrix_present_flag ≠ 0) {}
        (scalingLists (if hd.chroma_format_idc ≠ 3 then 8 else 12) 0 {})) ⟨l1, c⟩ = .ok sc s2 ↔
        ∃ r, ListsRead nd (spsListCount hd) 0 {} l1 r sc ∧ s2 = ⟨r, c⟩) := by
    intro hd hok l1 sc s2
    have hfl := hok.seq_scaling_matrix_present_flag
    unfold opt
    by_cases hf : hd.seq_scaling_matrix_present_flag = 1
    · rw [if_pos (by omega), spsListCount_eq hf]
      exact scalingLists_iff nd _ _ _ _ _ _ _
    · rw [if_neg (by omega)]
      rw [show spsListCount hd = 0 by unfold spsListCount; rw [if_neg hf]]
      rw [← scalingLists_iff]
      rfl
  unfold parseSpsData
  constructor
  · intro h
    rw [runL_bind_ok] at h
    obtain ⟨hd, s1, h1, h⟩ := h
    obtain ⟨hok, r1, rfl, rfl⟩ := (codec_spsHead nd l c hd s1).mp h1
    rw [runL_bind_ok] at h
    obtain ⟨sc, s2, h2, h⟩ := h
    obtain ⟨l2, g2, rfl⟩ := (count hd hok r1 sc s2).mp h2
    rw [runL_bind_ok] at h
    obtain ⟨t, s3, h3, h⟩ := h
    obtain ⟨tok, r3, e6, rfl⟩ := (codec_spsTail hok nd l2 c t s3).mp h3
    simp only [Prog.pure_eq, runL_ret, Out.ok.injEq] at h
    obtain ⟨rfl, rfl⟩ := h
    exact ⟨r3, ⟨hok, tok, r1, l2, rfl, g2, e6⟩, rfl⟩
  · rintro ⟨r, ⟨hok, tok, l1, l2, e1, h2, e2⟩, e3⟩
    rw [e1, e3]
    rw [e2] at h2
    rw [runL_bind, codec_spsHead.parse_append nd hok]
    simp only [Out.bind]
    rw [runL_bind, (count _ hok _ _ _).mpr ⟨_, h2, rfl⟩]
    simp only [Out.bind]
    rw [runL_bind, (codec_spsTail hok).parse_append nd tok]
    rfl

theorem ppsExt_iff (nd : Bool) (cf : Nat) (l : List Bool) (c : Nat) (t m : Nat) (sc : Scal) (q : Int) (s' : LSt) :
    runL nd (parsePpsExt cf) ⟨l, c⟩ = .ok (t, m, sc, q) s' ↔
      t < 2 ∧ m < 2 ∧ seRange q ∧ ∃ l2 l3 r, l = encU 1 t ++ encU 1 m ++ l2 ∧
        ListsRead nd (ppsListCount cf t m) 0 {} l2 l3 sc ∧ l3 = encSE q ++ r ∧ s' = ⟨r, c⟩ := by
  have count : m < 2 → ∀ (l1 : List Bool) (sc : Scal) (s2 : LSt),
      (runL nd (opt (m ≠ 0) {} (scalingLists (6 + (if cf ≠ 3 then 2 else 6) * t) 0 {})) ⟨l1, c⟩ = .ok sc s2 ↔
        ∃ r, ListsRead nd (ppsListCount cf t m) 0 {} l1 r sc ∧ s2 = ⟨r, c⟩) := by
    intro hm l1 sc s2
    unfold opt
    by_cases hf : m = 1
    · rw [if_pos (by omega), ppsListCount_eq hf]
      exact scalingLists_iff nd _ _ _ _ _ _ _
    · rw [if_neg (by omega)]
      rw [show ppsListCount cf t m = 0 by unfold ppsListCount; rw [if_neg hf]]
      rw [← scalingLists_iff]
      rfl
  unfold parsePpsExt
  constructor
  · intro h
    rw [runL_bind_ok] at h
    obtain ⟨t', s1, h1, h⟩ := h
    obtain ⟨ht, r1, rfl, rfl⟩ := ((Codec.u' (n := 1)) nd l c t' s1).mp h1
    rw [runL_bind_ok] at h
    obtain ⟨m', s2, h2, h⟩ := h
    obtain ⟨hm, r2, rfl, rfl⟩ := ((Codec.u' (n := 1)) nd r1 c m' s2).mp h2
    rw [runL_bind_ok] at h
    obtain ⟨sc', s3, h3, h⟩ := h
    rw [runL_bind_ok] at h
    obtain ⟨q', s4, h4, h⟩ := h
    simp only [Prog.pure_eq, runL_ret, Out.ok.injEq, Prod.mk.injEq] at h
    obtain ⟨⟨rfl, rfl, rfl, rfl⟩, rfl⟩ := h
    obtain ⟨l3, g3, rfl⟩ := (count hm _ _ _).mp h3
    obtain ⟨hq, r4, e6, e7⟩ := (Codec.se nd l3 c q' s4).mp h4
    exact ⟨ht, hm, hq, r2, l3, r4, by simp only [List.append_assoc], g3, e6, e7⟩
  · rintro ⟨ht, hm, hq, l2, l3, r, rfl, h3, rfl, rfl⟩
    rw [List.append_assoc, runL_bind, runL_flag nd ht]
    simp only [Out.bind]
    rw [runL_bind, runL_flag nd hm]
    simp only [Out.bind]
    rw [runL_bind, (count hm _ _ _).mpr ⟨_, h3, rfl⟩]
    simp only [Out.bind]
    rw [runL_bind, Codec.se.parse_append nd hq]
    rfl

end H264
