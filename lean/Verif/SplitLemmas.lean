import Verif.EscapeLemmas

/-
`FindNaluIndices` against the declarative set of start codes.
-/

namespace H264
open Spec

/-- Entries for a list of start codes whose last NAL unit ends at `e`. -/
def entriesTo (l : List UInt8) (e : Nat) : List Nat → List NaluIndex
  | [] => []
  | [p] => [⟨startOffset l p, p + 3, e - (p + 3)⟩]
  | p :: q :: r => ⟨startOffset l p, p + 3, startOffset l q - (p + 3)⟩ :: entriesTo l e (q :: r)

theorem entriesTo_length (l : List UInt8) : ∀ ps, entriesTo l l.length ps = entries l ps
  | [] => rfl
  | [_] => rfl
  | p :: q :: r => by rw [entriesTo, entries, entriesTo_length l (q :: r)]

theorem entriesTo_ne_nil (l : List UInt8) (e : Nat) : ∀ {ps}, ps ≠ [] → entriesTo l e ps ≠ []
  | [], h => absurd rfl h
  | [_], _ => by simp [entriesTo]
  | _ :: _ :: _, _ => by simp [entriesTo]

theorem closeLast_cons (x : NaluIndex) {s : List NaluIndex} (h : s ≠ []) (e : Nat) :
    closeLast (x :: s) e = x :: closeLast s e := by
  obtain ⟨t, y, rfl⟩ : ∃ t y, s = t ++ [y] := by
    rcases List.eq_nil_or_concat s with h' | ⟨t, y, h'⟩
    · exact absurd h' h
    · exact ⟨t, y, by rw [h', List.concat_eq_append]⟩
  unfold closeLast
  rw [← List.cons_append, List.getLast?_append, List.getLast?_append]
  simp only [List.getLast?_singleton, Option.some_or]
  rw [List.dropLast_concat, List.dropLast_concat]
  rfl

/-- Setting the size of the last entry. -/
theorem closeLast_entries (l : List UInt8) (e0 e : Nat) (he : e < 2 ^ 64) : ∀ ps : List Nat,
    (∀ p, ps.getLast? = some p → p + 3 ≤ e) → closeLast (entriesTo l e0 ps) e = entriesTo l e ps
  | [], _ => rfl
  | [p], h => by
    have := h p rfl
    simp only [closeLast, entriesTo, List.getLast?_singleton]
    rw [sub64_eq this he]
    rfl
  | p :: q :: r, h => by
    rw [entriesTo, closeLast_cons _ (entriesTo_ne_nil l e0 (by simp)), closeLast_entries l e0 e he (q :: r), entriesTo]
    intro x hx
    exact h x (by rw [← hx]; rfl)

/-- Adding a start code. -/
theorem entriesTo_append (l : List UInt8) (p : Nat) : ∀ ps : List Nat,
    entriesTo l (startOffset l p) ps ++ [⟨startOffset l p, p + 3, 0⟩] = entriesTo l (p + 3) (ps ++ [p])
  | [] => by simp [entriesTo]
  | [q] => by simp [entriesTo]
  | q :: q' :: r => by
    have := entriesTo_append l p (q' :: r)
    simp only [List.cons_append, entriesTo] at this ⊢
    rw [this]

/-- Start codes before `i`. -/
def startsTo (l : List UInt8) (i : Nat) : List Nat := (List.range i).filter (fun i => isStart l i)

theorem startsTo_succ (l : List UInt8) (i : Nat) :
    startsTo l (i + 1) = startsTo l i ++ (if isStart l i then [i] else []) := by
  unfold startsTo
  rw [List.range_succ, List.filter_append]
  simp only [List.filter_cons, List.filter_nil, decide_eq_true_eq]
theorem startsTo_skip {l : List UInt8} {i : Nat} (h : ¬ isStart l i) : startsTo l (i + 1) = startsTo l i := by
  rw [startsTo_succ, if_neg h, List.append_nil]
theorem startsTo_hit {l : List UInt8} {i : Nat} (h : isStart l i) : startsTo l (i + 1) = startsTo l i ++ [i] := by
  rw [startsTo_succ, if_pos h]

theorem mem_startsTo {l : List UInt8} {i p : Nat} : p ∈ startsTo l i ↔ p < i ∧ isStart l p := by
  simp [startsTo, List.mem_filter]

theorem starts_eq {l : List UInt8} {i : Nat} (h : l.length ≤ i + 3) : startsTo l i = starts l := by
  have key : ∀ n, startsTo l (i + n) = startsTo l i := by
    intro n
    induction n with
    | zero => rfl
    | succ n ih => rw [show i + (n + 1) = i + n + 1 by omega, startsTo_skip (by intro h; have := h.2; omega), ih]
  by_cases hi : i ≤ l.length
  · have := key (l.length - i)
    rw [show i + (l.length - i) = l.length by omega] at this
    exact this.symm
  · have : ∀ n, startsTo l (l.length + n) = starts l := by
      intro n
      induction n with
      | zero => rfl
      | succ n ih => rw [show l.length + (n + 1) = l.length + n + 1 by omega, startsTo_skip (by intro h; have := h.2; omega), ih]
    have := this (i - l.length)
    rwa [show l.length + (i - l.length) = i by omega] at this

theorem not_start_of {l : List UInt8} {p k : Nat} {x : UInt8} (hx : l[k]? = some x)
    (h : (k = p ∧ x ≠ 0) ∨ (k = p + 1 ∧ x ≠ 0) ∨ (k = p + 2 ∧ x ≠ 1)) : ¬ isStart l p := by
  rintro ⟨⟨h1, h2, h3⟩, _⟩
  rcases h with ⟨rfl, h⟩ | ⟨rfl, h⟩ | ⟨rfl, h⟩
  · rw [h1] at hx; injection hx with hx; exact h hx.symm
  · rw [h2] at hx; injection hx with hx; exact h hx.symm
  · rw [h3] at hx; injection hx with hx; exact h hx.symm

theorem toNat_eq_one {a : UInt8} : a.toNat = 1 ↔ a = 1 := by
  constructor
  · intro h; rw [← ofNat_toNat a, h]; rfl
  · rintro rfl; rfl

/-- Consecutive start codes do not overlap, even counting the zero byte before the second one. -/
theorem start_gap {l : List UInt8} {p q : Nat} (hp : isStart l p) (hq : isStart l q) (h : p < q) :
    p + 3 ≤ startOffset l q := by
  obtain ⟨⟨_, _, h3⟩, _⟩ := hp
  have hq' := hq
  obtain ⟨⟨g1, g2, g3⟩, _⟩ := hq'
  have n1 : q ≠ p + 1 := by
    rintro rfl
    exact not_start_of h3 (Or.inr (Or.inl ⟨rfl, by decide⟩)) hq
  have n2 : q ≠ p + 2 := by
    rintro rfl
    exact not_start_of h3 (Or.inl ⟨rfl, by decide⟩) hq
  unfold startOffset
  split
  · rename_i h0
    by_cases h4 : q = p + 3
    · subst h4
      rw [show p + 3 - 1 = p + 2 by omega, h3] at h0
      exact absurd h0.2 (by decide)
    · omega
  · omega

theorem startOffset_le (l : List UInt8) (p : Nat) : startOffset l p ≤ p := by unfold startOffset; split <;> omega

/-- The loop finds the start codes from `i` on. -/
theorem findLoop_eq (l : List UInt8) (hl : l.length < 2 ^ 64) (h3 : 3 ≤ l.length) :
    ∀ (f i e0 : Nat), l.length - 3 - i ≤ f →
      ∃ e, findLoop l (l.length - 3) f i (entriesTo l e0 (startsTo l i)) = .val (entriesTo l e (starts l)) := by
  intro f
  induction f with
  | zero =>
    intro i e0 hf
    rw [findLoop, if_neg (by omega)]
    exact ⟨e0, by rw [starts_eq (by omega)]⟩
  | succ f ih =>
    intro i e0 hf
    rw [findLoop]
    by_cases hi : i < l.length - 3
    · rw [if_pos hi]
      have h2 : l[i + 2]? = some l[i + 2] := List.getElem?_eq_getElem (by omega)
      rw [load_some h2, Res.val_bind]
      by_cases hc : l[i + 2].toNat > 1
      · rw [if_pos hc]
        have n0 : l[i + 2] ≠ 0 := by intro h; rw [h] at hc; exact absurd hc (by decide)
        have n1 : l[i + 2] ≠ 1 := by intro h; rw [h] at hc; exact absurd hc (by decide)
        have s0 := not_start_of (p := i) h2 (Or.inr (Or.inr ⟨rfl, n1⟩))
        have s1 := not_start_of (p := i + 1) h2 (Or.inr (Or.inl ⟨rfl, n0⟩))
        have s2 := not_start_of (p := i + 2) h2 (Or.inl ⟨rfl, n0⟩)
        have := ih (i + 3) e0 (by omega)
        rwa [startsTo_skip s2, startsTo_skip s1, startsTo_skip s0] at this
      · rw [if_neg hc]
        have h1 : l[i + 1]? = some l[i + 1] := List.getElem?_eq_getElem (by omega)
        have h0 : l[i]? = some l[i] := List.getElem?_eq_getElem (by omega)
        have skip : ¬ isStart l i → ∃ e, findLoop l (l.length - 3) f (i + 1) (entriesTo l e0 (startsTo l i)) =
            .val (entriesTo l e (starts l)) := by
          intro hs
          have := ih (i + 1) e0 (by omega)
          rwa [startsTo_skip hs] at this
        by_cases c1 : l[i + 2].toNat = 1
        · rw [if_pos c1, load_some h1, Res.val_bind]
          have e2 := toNat_eq_one.mp c1
          by_cases c2 : l[i + 1].toNat = 0
          · rw [if_pos c2, load_some h0, Res.val_bind]
            have e1 := toNat_eq_zero.mp c2
            by_cases c3 : l[i].toNat = 0
            · have e0' := toNat_eq_zero.mp c3
              have hs : isStart l i := ⟨⟨by rw [h0, e0'], by rw [h1, e1], by rw [h2, e2]⟩, by omega⟩
              simp only [Res.pure_eq, Res.val_bind, c3, decide_true, if_true]
              have hlong : (do
                  let long ← if i > 0 then do
                      let p ← load l (i - 1)
                      pure (decide (p = 0))
                    else pure false
                  findLoop l (l.length - 3) f (i + 3) (closeLast (entriesTo l e0 (startsTo l i)) (if long = true then i - 1 else i) ++
                    [⟨if long = true then i - 1 else i, i + 3, 0⟩])) =
                  findLoop l (l.length - 3) f (i + 3)
                    (closeLast (entriesTo l e0 (startsTo l i)) (startOffset l i) ++ [⟨startOffset l i, i + 3, 0⟩]) := by
                by_cases hpos : i > 0
                · have hm : l[i - 1]? = some l[i - 1] := List.getElem?_eq_getElem (by omega)
                  rw [if_pos hpos, load_some hm, Res.val_bind, Res.pure_eq, Res.val_bind]
                  have : (if decide (l[i - 1].toNat = 0) = true then i - 1 else i) = startOffset l i := by
                    unfold startOffset
                    rw [hm]
                    simp only [toNat_eq_zero, decide_eq_true_eq, Option.some.injEq]
                    by_cases hz : l[i - 1] = 0
                    · rw [if_pos hz, if_pos ⟨hpos, hz⟩]
                    · rw [if_neg hz, if_neg (fun k => hz k.2)]
                  simp only [this]
                · rw [if_neg hpos, Res.pure_eq, Res.val_bind]
                  have : startOffset l i = i := by unfold startOffset; rw [if_neg (fun k => hpos k.1)]
                  simp only [this, Bool.false_eq_true, if_false]
              simp only [Res.pure_eq, Res.val_bind] at hlong
              rw [hlong]
              rw [closeLast_entries l e0 (startOffset l i) (by have := startOffset_le l i; omega) (startsTo l i),
                entriesTo_append]
              · have n0 : l[i + 2] ≠ 0 := by rw [e2]; decide
                have s1 := not_start_of (p := i + 1) h2 (Or.inr (Or.inl ⟨rfl, n0⟩))
                have s2 := not_start_of (p := i + 2) h2 (Or.inl ⟨rfl, n0⟩)
                have := ih (i + 3) (i + 3) (by omega)
                rwa [startsTo_skip s2, startsTo_skip s1, startsTo_hit hs] at this
              · intro p hp
                have := mem_startsTo.mp (List.mem_of_getLast? hp)
                exact start_gap this.2 hs this.1
            · simp only [Res.pure_eq, Res.val_bind, c3, decide_false, Bool.false_eq_true, if_false]
              exact skip (not_start_of h0 (Or.inl ⟨rfl, fun k => c3 (toNat_eq_zero.mpr k)⟩))
          · rw [if_neg c2]
            simp only [Res.pure_eq, Res.val_bind, Bool.false_eq_true, if_false]
            exact skip (not_start_of h1 (Or.inr (Or.inl ⟨rfl, fun k => c2 (toNat_eq_zero.mpr k)⟩)))
        · rw [if_neg c1]
          simp only [Res.pure_eq, Res.val_bind, Bool.false_eq_true, if_false]
          exact skip (not_start_of h2 (Or.inr (Or.inr ⟨rfl, fun k => c1 (toNat_eq_one.mpr k)⟩)))
    · rw [if_neg hi]
      exact ⟨e0, by rw [starts_eq (by omega)]⟩

theorem findNaluIndices_eq (l : List UInt8) (hl : l.length < 2 ^ 64) :
    findNaluIndices l = .val (entries l (starts l)) := by
  unfold findNaluIndices
  by_cases h3 : l.length < 3
  · rw [if_pos h3, ← starts_eq (i := 0) (by omega)]; rfl
  · rw [if_neg h3]
    obtain ⟨e, he⟩ := findLoop_eq l hl (by omega) l.length 0 0 (by omega)
    have : entriesTo l 0 (startsTo l 0) = [] := rfl
    rw [this] at he
    rw [he, Res.val_bind, Res.pure_eq, closeLast_entries l e l.length hl, entriesTo_length]
    intro p hp
    have : p ∈ startsTo l l.length := List.mem_of_getLast? hp
    have := (mem_startsTo.mp this).2.2
    omega

/-! ### Mux -/

theorem getElem?_mid {a b c : List UInt8} {i : Nat} (h1 : a.length ≤ i) (h2 : i < a.length + b.length) :
    (a ++ b ++ c)[i]? = b[i - a.length]? := by
  rw [List.getElem?_append_left (by simp; omega), List.getElem?_append_right h1]

/-- The start code bytes. -/
def codeOf (long : Bool) : List UInt8 := if long then [0, 0, 0, 1] else [0, 0, 1]

/-- Start codes of `code ++ unit ++ rest`. -/
theorem isStart_unit {long : Bool} {u r : List UInt8} (hu : Carriable u) (p : Nat) :
    isStart (codeOf long ++ u ++ r) p ↔
      p = (codeOf long).length - 3 ∨
      ((codeOf long).length + u.length ≤ p ∧ isStart r (p - ((codeOf long).length + u.length))) := by
  have hu0 : 0 < u.length := List.length_pos_iff.mpr hu.nonempty
  have hc : 3 ≤ (codeOf long).length ∧ (codeOf long).length ≤ 4 := by cases long <;> decide
  have hlast : u[u.length - 1]? ≠ some 0 := by rw [← List.getLast?_eq_getElem?]; exact hu.last
  generalize hk : (codeOf long).length = k at *
  have inRest : ∀ i, k + u.length ≤ i → (codeOf long ++ u ++ r)[i]? = r[i - (k + u.length)]? := by
    intro i hi
    rw [List.getElem?_append_right (by simp; omega)]
    congr 1; simp; omega
  have inUnit : ∀ i, k ≤ i → i < k + u.length → (codeOf long ++ u ++ r)[i]? = u[i - k]? := by
    intro i h1 h2
    rw [getElem?_mid (by omega) (by omega), hk]
  have inCode : ∀ i, i < k → (codeOf long ++ u ++ r)[i]? = (codeOf long)[i]? := by
    intro i hi
    rw [List.append_assoc, List.getElem?_append_left (by omega)]
  have len : (codeOf long ++ u ++ r).length = k + u.length + r.length := by simp [hk]; omega
  have code0 : ∀ i, i < k - 1 → (codeOf long)[i]? = some 0 := by
    intro i hi
    cases long
    · have : k = 3 := hk.symm
      match i with
      | 0 => rfl
      | 1 => rfl
      | i + 2 => omega
    · have : k = 4 := hk.symm
      match i with
      | 0 => rfl
      | 1 => rfl
      | 2 => rfl
      | i + 3 => omega
  have code1 : (codeOf long)[k - 1]? = some 1 := by cases long <;> subst hk <;> rfl
  constructor
  · rintro ⟨⟨h1, h2, h3⟩, h4⟩
    by_cases hp : k + u.length ≤ p
    · refine Or.inr ⟨hp, ⟨?_, ?_, ?_⟩, ?_⟩
      · rw [← inRest p hp]; exact h1
      · rw [inRest (p + 1) (by omega)] at h2
        rw [← h2]; congr 1; omega
      · rw [inRest (p + 2) (by omega)] at h3
        rw [← h3]; congr 1; omega
      · rw [len] at h4; omega
    · left
      by_cases hp2 : p = k - 3
      · exact hp2
      · exfalso
        by_cases hpk : p < k
        · -- starts in the start code
          by_cases e1 : p = k - 1
          · rw [e1, inCode _ (by omega), code1] at h1; exact absurd h1 (by decide)
          · by_cases e2 : p + 1 = k - 1
            · rw [e2, inCode _ (by omega), code1] at h2; exact absurd h2 (by decide)
            · by_cases e3 : p + 2 < k - 1
              · rw [inCode _ (by omega), code0 _ e3] at h3; exact absurd h3 (by decide)
              · omega
        · have hpk' : k ≤ p := by omega
          by_cases i1 : p + 1 < k + u.length
          · by_cases i2 : p + 2 < k + u.length
            · rw [inUnit _ (by omega) (by omega)] at h1 h2 h3
              refine hu.no1 (p - k) ⟨h1, ?_, ?_⟩
              · rw [← h2]; congr 1; omega
              · rw [← h3]; congr 1; omega
            · rw [inUnit _ (by omega) i1] at h2
              apply hlast
              rw [← h2]; congr 1; omega
          · rw [inUnit _ (by omega) (by omega)] at h1
            apply hlast
            rw [← h1]; congr 1; omega
  · rintro (rfl | ⟨hp, ⟨h1, h2, h3⟩, h4⟩)
    · refine ⟨⟨?_, ?_, ?_⟩, by rw [len]; omega⟩
      · rw [inCode _ (by omega), code0 _ (by omega)]
      · rw [inCode _ (by omega), code0 _ (by omega)]
      · rw [inCode _ (by omega), show k - 3 + 2 = k - 1 by omega, code1]
    · refine ⟨⟨?_, ?_, ?_⟩, by rw [len]; omega⟩
      · rw [inRest _ hp]; exact h1
      · rw [inRest _ (by omega), ← h2]; congr 1; omega
      · rw [inRest _ (by omega), ← h3]; congr 1; omega

theorem starts_sorted (l : List UInt8) : (starts l).Pairwise (· < ·) :=
  List.Pairwise.filter _ List.pairwise_lt_range

theorem sorted_ext : ∀ {a b : List Nat}, a.Pairwise (· < ·) → b.Pairwise (· < ·) → (∀ x, x ∈ a ↔ x ∈ b) → a = b
  | [], [], _, _, _ => rfl
  | [], y :: b, _, _, h => by have := (h y).mpr (by simp); simp at this
  | x :: a, [], _, _, h => by have := (h x).mp (by simp); simp at this
  | x :: a, y :: b, ha, hb, h => by
    rw [List.pairwise_cons] at ha hb
    have hxy : x = y := by
      have h1 := (h x).mp (by simp)
      have h2 := (h y).mpr (by simp)
      rw [List.mem_cons] at h1 h2
      rcases h1 with h1 | h1
      · exact h1
      · rcases h2 with h2 | h2
        · exact h2.symm
        · have := ha.1 y h2; have := hb.1 x h1; omega
    subst hxy
    congr 1
    refine sorted_ext ha.2 hb.2 (fun z => ?_)
    constructor
    · intro hz
      have h1 := (h z).mp (by simp [hz])
      rw [List.mem_cons] at h1
      rcases h1 with rfl | h1
      · have := ha.1 _ hz; omega
      · exact h1
    · intro hz
      have h1 := (h z).mpr (by simp [hz])
      rw [List.mem_cons] at h1
      rcases h1 with rfl | h1
      · have := hb.1 _ hz; omega
      · exact h1

theorem mem_starts {l : List UInt8} {p : Nat} : p ∈ starts l ↔ isStart l p := by
  constructor
  · intro h; exact (mem_startsTo.mp h).2
  · intro h; exact mem_startsTo.mpr ⟨by have := h.2; omega, h⟩

theorem starts_unit {long : Bool} {u r : List UInt8} (hu : Carriable u) :
    starts (codeOf long ++ u ++ r) =
      ((codeOf long).length - 3) :: (starts r).map (· + ((codeOf long).length + u.length)) := by
  have hu0 : 0 < u.length := List.length_pos_iff.mpr hu.nonempty
  have hc : 3 ≤ (codeOf long).length := by cases long <;> decide
  refine sorted_ext (starts_sorted _) ?_ (fun p => ?_)
  · rw [List.pairwise_cons]
    constructor
    · intro p hp
      simp only [List.mem_map] at hp
      obtain ⟨q, _, rfl⟩ := hp
      omega
    · exact List.Pairwise.map _ (by intro a b h; show _ < _; omega) (starts_sorted r)
  · rw [mem_starts, isStart_unit hu]
    simp only [List.mem_cons, List.mem_map, mem_starts]
    constructor
    · rintro (h | ⟨h1, h2⟩)
      · exact Or.inl h
      · exact Or.inr ⟨_, h2, by omega⟩
    · rintro (h | ⟨q, h, rfl⟩)
      · exact Or.inl h
      · refine Or.inr ⟨by omega, ?_⟩
        rw [Nat.add_sub_cancel]; exact h

theorem slices_shift {pre r : List UInt8} (hpre : pre.getLast? ≠ some 0) : ∀ ps : List Nat,
    (∀ p ∈ ps, p + 3 ≤ r.length) →
    (entries (pre ++ r) (ps.map (· + pre.length))).map (sliceOf (pre ++ r)) = (entries r ps).map (sliceOf r)
  | [], _ => rfl
  | [p], _ => by
    simp only [List.map_cons, List.map_nil, entries, sliceOf]
    rw [show p + pre.length + 3 = pre.length + (p + 3) by omega, List.drop_append, List.drop_eq_nil_of_le (by omega)]
    simp only [List.nil_append, List.length_append]
    congr 2
    · omega
    · congr 1; omega
  | p :: q :: t, h => by
    have ih := slices_shift hpre (q :: t) (fun x hx => h x (by simp [hx]))
    simp only [List.map_cons, entries, sliceOf] at ih ⊢
    congr 1
    rw [show p + pre.length + 3 = pre.length + (p + 3) by omega, List.drop_append, List.drop_eq_nil_of_le (by omega)]
    simp only [List.nil_append]
    have : startOffset (pre ++ r) (q + pre.length) = startOffset r q + pre.length := by
      unfold startOffset
      by_cases hq : q = 0
      · subst hq
        rw [if_neg (c := 0 < 0 ∧ _) (fun k => absurd k.1 (by omega)), if_neg]
        rintro ⟨k1, k2⟩
        rw [List.getElem?_append_left (by omega), Nat.zero_add, ← List.getLast?_eq_getElem?] at k2
        exact hpre k2
      · have : (pre ++ r)[q + pre.length - 1]? = r[q - 1]? := by
          rw [List.getElem?_append_right (by omega)]; congr 1; omega
        rw [this]
        by_cases hz : r[q - 1]? = some 0
        · rw [if_pos ⟨by omega, hz⟩, if_pos ⟨by omega, hz⟩]; omega
        · rw [if_neg (fun k => hz k.2), if_neg (fun k => hz k.2)]
    rw [this, show pre.length + (p + 3) - pre.length = p + 3 by omega,
      show startOffset r q + pre.length - (pre.length + (p + 3)) = startOffset r q - (p + 3) by omega]

end H264
