import Verif.ScriptRead
import Verif.Spec.SplitScript
import Verif.Props.Tool
import Verif.Props.Pieces

/-
Lemmas for C82: the points at which the script cuts.
-/

namespace H264.Script

open H264 H264.Spec H264.Shown

/-! ### Slices -/

theorem slice_get {data : List UInt8} {a b i : Nat} (h : i < b - a) : (slice data a b)[i]? = data[a + i]? := by
  unfold slice
  rw [List.getElem?_take, if_pos h, List.getElem?_drop]

theorem slice_length {data : List UInt8} {a b : Nat} (h1 : b ≤ data.length) : (slice data a b).length = b - a := by
  unfold slice
  rw [List.length_take, List.length_drop]
  omega

theorem slice_drop {data : List UInt8} {a b : Nat} (h : a ≤ b) : slice data a b ++ data.drop b = data.drop a := by
  unfold slice
  have : data.drop b = (data.drop a).drop (b - a) := by rw [List.drop_drop]; congr 1; omega
  rw [this, List.take_append_drop]

theorem find_start {data : List UInt8} {p : Nat} (h : isStart data p) : findStartCodeOffset data (p + 3) = startOffset data p := by
  obtain ⟨⟨h0, h1, h2⟩, h3⟩ := h
  have e3 : slice data (p + 3 - 3) (p + 3) = [0, 0, 1] := by
    refine List.ext_getElem? fun i => ?_
    by_cases hi : i < 3
    · rw [slice_get (by omega), Nat.add_sub_cancel]
      match i, hi with
      | 0, _ => exact h0
      | 1, _ => exact h1
      | 2, _ => exact h2
    · rw [List.getElem?_eq_none (by rw [slice_length (by omega)]; omega), List.getElem?_eq_none (by simp; omega)]
  unfold findStartCodeOffset startOffset
  by_cases hz : 0 < p ∧ data[p - 1]? = some 0
  · rw [if_pos hz, if_pos, show p + 3 - 4 = p - 1 from by omega]
    refine ⟨by omega, List.ext_getElem? fun i => ?_⟩
    by_cases hi : i < 4
    · rw [slice_get (by omega), show p + 3 - 4 = p - 1 from by omega]
      match i, hi with
      | 0, _ => exact hz.2
      | 1, _ => rw [show p - 1 + 1 = p from by omega]; exact h0
      | 2, _ => rw [show p - 1 + 2 = p + 1 from by omega]; exact h1
      | 3, _ => rw [show p - 1 + 3 = p + 2 from by omega]; exact h2
    · rw [List.getElem?_eq_none (by rw [slice_length (by omega)]; omega), List.getElem?_eq_none (by simp; omega)]
  · rw [if_neg hz, if_neg, if_pos ⟨by omega, e3⟩, Nat.add_sub_cancel]
    rintro ⟨k1, k2⟩
    refine hz ⟨by omega, ?_⟩
    have := congrArg (fun l : List UInt8 => l[0]?) k2
    change (slice data (p + 3 - 4) (p + 3))[0]? = some 0 at this
    rw [slice_get (by omega), show p + 3 - 4 + 0 = p - 1 from by omega] at this
    exact this

/-! ### Where the NAL units are -/

/-- Where the NAL units from here on begin, with their start codes. -/
def bound (data : List UInt8) : List NalUnit → Nat
  | [] => data.length
  | n :: _ => startOffset data (n.offset - 3)

/-- The NAL units follow each other to the end of the data. -/
def Tiled (data : List UInt8) : List NalUnit → Prop
  | [] => True
  | n :: ns => 3 ≤ n.offset ∧ isStart data (n.offset - 3) ∧ 1 ≤ n.length ∧ n.offset + n.length = bound data ns ∧ Tiled data ns

theorem inOrder_all {parse : List UInt8 → Store → Nat → Res (Option NalUnit × Store × Nat)} {us : List (Nat × List UInt8)} {σ σ' : Store}
    {c c' : Nat} {ns : List NalUnit} (h : InOrder parse us σ c ns σ' c') :
    ns.length ≤ us.length ∧ (ns.length = us.length → ns.map (fun n => (n.offset, n.length)) = us.map (fun u => (u.1, u.2.length))) := by
  induction h with
  | nil => simp
  | skip h1 h2 ih => exact ⟨by simp; omega, fun e => by simp at e; omega⟩
  | unit h1 h2 ih =>
    refine ⟨by simp; omega, fun e => ?_⟩
    rw [List.map_cons, List.map_cons, ih.2 (by simpa using e)]

theorem tiled_of {data : List UInt8} : ∀ (ps : List Nat) (ns : List NalUnit), ps.Pairwise (· < ·) → (∀ p ∈ ps, isStart data p) →
    (∀ n ∈ ns, 0 < n.length) →
    ns.map (fun n => (n.offset, n.length)) =
      ((entries data ps).map fun e => (e.payload_start_offset, sliceOf data e)).map (fun u => (u.1, u.2.length)) →
    Tiled data ns ∧ ns.map (·.offset) = ps.map (· + 3)
  | [], ns, _, _, _, h => by
    cases ns with
    | nil => exact ⟨trivial, rfl⟩
    | cons n ns => simp [entries] at h
  | [p], ns, _, hp, hn, h => by
    match ns, h with
    | [], h => simp [entries] at h
    | [n], h =>
      simp only [entries, sliceOf, List.map_cons, List.map_nil, List.cons.injEq, Prod.mk.injEq, and_true, List.length_take,
        List.length_drop] at h
      obtain ⟨h1, h2⟩ := h
      have hs := hp p (by simp)
      refine ⟨⟨by omega, by rw [h1, Nat.add_sub_cancel]; exact hs, by have := hn n (by simp); omega, ?_, trivial⟩, by simp [h1]⟩
      have := hs.2
      show _ = data.length
      omega
    | n :: m :: ns, h => simp [entries] at h
  | p :: q :: r, ns, hs, hp, hn, h => by
    match ns, h with
    | [], h => simp [entries] at h
    | n :: ns, h =>
      rw [entries, List.map_cons, List.map_cons, List.map_cons, List.cons.injEq] at h
      obtain ⟨h1, h2⟩ := h
      rw [List.pairwise_cons] at hs
      obtain ⟨t, e⟩ := tiled_of (q :: r) ns hs.2 (fun x hx => hp x (by simp [hx])) (fun x hx => hn x (by simp [hx])) h2
      match ns, e, t with
      | m :: ns, e, t =>
        simp only [List.map_cons, List.cons.injEq] at e
        simp only [sliceOf, List.length_take, List.length_drop, Prod.mk.injEq] at h1
        obtain ⟨h1, h3⟩ := h1
        have hs' := hp p (by simp)
        have hq := hp q (by simp)
        have g := start_gap hs' hq (hs.1 q (by simp))
        have g2 := startOffset_le data q
        have := hq.2
        refine ⟨⟨by omega, by rw [h1, Nat.add_sub_cancel]; exact hs', by have := hn n (by simp); omega, ?_, t⟩, ?_⟩
        · show _ = startOffset data (m.offset - 3)
          rw [show m.offset - 3 = q from by omega]
          omega
        · simp only [List.map_cons, List.cons.injEq]
          exact ⟨h1, e.1, e.2⟩

theorem bound_le {data : List UInt8} {ns : List NalUnit} (h : Tiled data ns) : bound data ns ≤ data.length := by
  cases ns with
  | nil => exact Nat.le_refl _
  | cons n ns =>
    have h1 := h.2.1.2
    have := startOffset_le data (n.offset - 3)
    show startOffset data _ ≤ _
    omega

theorem tiled_after {data : List UInt8} {ns : List NalUnit} (h : Tiled data ns) : ∀ m ∈ ns,
    bound data ns + 3 ≤ m.offset ∧ m.offset + m.length ≤ data.length := by
  induction ns with
  | nil => intro m hm; cases hm
  | cons n ns ih =>
    intro m hm
    have h1 : bound data (n :: ns) + 3 ≤ n.offset := by
      have := startOffset_le data (n.offset - 3)
      have := h.1
      show startOffset data _ + 3 ≤ _
      omega
    have h2 := bound_le h.2.2.2.2
    have h3 := h.2.2.2.1
    rcases List.mem_cons.mp hm with rfl | hm
    · exact ⟨h1, by omega⟩
    · have := ih h.2.2.2.2 m hm
      exact ⟨by omega, this.2⟩

/-! ### The walk -/

theorem slices_two (data : List UInt8) (a b : Nat) (r : List Nat) : slices data (a :: b :: r) = slice data a b :: slices data (b :: r) := rfl

/-- What is to be shown of the pieces from `s` on. -/
def Walked (data : List UInt8) (ns g : List NalUnit) (s : Nat) (pts : List Nat) : Prop :=
  ∃ h gs, h ++ gs.flatten = ns ∧ Within s (slices data (s :: (pts ++ [data.length]))) ((g ++ h) :: gs) ∧
    ChangesBetween taken ((g ++ h) :: gs) ∧ (slices data (s :: (pts ++ [data.length]))).flatten = data.drop s ∧
    Cuts (slices data (s :: (pts ++ [data.length]))) ∧ gs.length = pts.length

/-- The pieces and the groups from a NAL unit on; `g` are the NAL units before it in its group, which begins at `s`. -/
theorem walk (data : List UInt8) : ∀ (ns g : List NalUnit) (s : Nat) (cur : Option (Nat × Nat)), Tiled data ns →
    (∀ m ∈ g, s + 3 ≤ m.offset ∧ 1 ≤ m.length ∧ m.offset + m.length ≤ bound data ns) → s ≤ bound data ns →
    (∀ m ∈ g, ∀ r, taken m = some r → cur = some r) → (∀ r, cur = some r → ∃ m ∈ g, taken m = some r) →
    (∀ p, isStart data p → s ≤ p → ∃ m ∈ g ++ ns, m.offset = p + 3) →
    Walked data ns g s (points data cur ns)
  | [], g, s, cur, _, hg, hs, hc, _, _ => by
    change s ≤ data.length at hs
    refine ⟨[], [], rfl, ?_, ?_, ?_, trivial, rfl⟩
    · refine .cons (fun m hm => ?_) (.nil _)
      rw [List.append_nil] at hm
      have := hg m hm
      change _ ∧ _ ∧ _ ≤ data.length at this
      rw [slice_length (Nat.le_refl _)]
      omega
    · refine .last fun m hm n hn r t h1 h2 => ?_
      rw [List.append_nil] at hm hn
      have := hc m hm r h1
      rw [hc n hn t h2] at this
      exact (Option.some.inj this).symm
    · show (slice data s data.length ++ []) = _
      rw [List.append_nil, ← slice_drop hs, List.drop_length, List.append_nil]
  | n :: ns, g, s, cur, ht, hg, hs, hc, hc', hf => by
    have ha := tiled_after ht
    have hn := ha n (by simp)
    have ht2 := ht.2.2.2.2
    have hb := ht.2.2.2.1
    have hbl := bound_le ht2
    have hmore : ∀ cur' : Option (Nat × Nat), (∀ m ∈ g, ∀ r, taken m = some r → cur' = some r) →
        (∀ r, taken n = some r → cur' = some r) → (∀ r, cur' = some r → ∃ m ∈ g ++ [n], taken m = some r) →
        points data cur (n :: ns) = points data cur' ns → Walked data (n :: ns) g s (points data cur (n :: ns)) := by
      intro cur' k1 k2 k3 k4
      have := walk data ns (g ++ [n]) s cur' ht2 ?_ (by omega) ?_ k3 (by
        intro p hp hsp
        obtain ⟨m, hm, e⟩ := hf p hp hsp
        exact ⟨m, by simpa using hm, e⟩)
      · obtain ⟨h, gs, w1, w2, w3, w4, w5, w6⟩ := this
        rw [← k4] at w2 w4 w5 w6
        rw [List.append_assoc, List.singleton_append] at w2 w3
        exact ⟨n :: h, gs, by rw [List.cons_append, w1], w2, w3, w4, w5, w6⟩
      · intro m hm
        rcases List.mem_append.mp hm with hm | hm
        · have := hg m hm
          omega
        · rw [List.mem_singleton] at hm
          subst hm
          have := ht.2.2.1
          omega
      · intro m hm r hr
        rcases List.mem_append.mp hm with hm | hm
        · exact k1 m hm r hr
        · rw [List.mem_singleton] at hm
          subst hm
          exact k2 r hr
    cases htn : taken n with
    | none =>
      refine hmore cur hc (by simp [htn]) (fun r hr => ?_) (by rw [points, htn])
      obtain ⟨m, hm, e⟩ := hc' r hr
      exact ⟨m, by simp [hm], e⟩
    | some r =>
      by_cases hd : cur ≠ none ∧ some r ≠ cur
      · have e1 : points data cur (n :: ns) = bound data (n :: ns) :: points data (some r) ns := by
          rw [points, htn]
          dsimp only
          rw [if_pos hd]
          have := find_start ht.2.1
          rw [show n.offset - 3 + 3 = n.offset from by have := ht.1; omega] at this
          rw [this]
          rfl
        generalize he : bound data (n :: ns) = e at *
        obtain ⟨h, gs, w1, w2, w3, w4, w5, w6⟩ := walk data ns [n] e (some r) ht2
          (fun m hm => by rw [List.mem_singleton] at hm; subst hm; exact ⟨hn.1, ht.2.2.1, by omega⟩) (by omega)
          (fun m hm r' hr => by rw [List.mem_singleton] at hm; subst hm; rw [← hr, htn])
          (fun r' hr => ⟨n, by simp, by rw [htn, hr]⟩)
          (fun p hp hep => by
            obtain ⟨m, hm, eo⟩ := hf p hp (by omega)
            rcases List.mem_append.mp hm with hm | hm
            · have := hg m hm
              omega
            · exact ⟨m, by simpa using hm, eo⟩)
        rw [e1, Walked, List.cons_append, slices_two]
        have hlen : (slice data s e).length = e - s := slice_length (by omega)
        generalize slices data (e :: (points data (some r) ns ++ [data.length])) = ps at *
        refine ⟨[], ([n] ++ h) :: gs, by rw [List.nil_append, List.flatten_cons, List.append_assoc, w1]; rfl, ?_, ?_, ?_, ?_, ?_⟩
        · refine .cons (fun m hm => ?_) ?_
          · rw [List.append_nil] at hm
            have := hg m hm
            omega
          · rw [hlen, show s + (e - s) = e from by omega]
            exact w2
        · rw [List.append_nil]
          refine .next (fun m hm n hn r t h1 h2 => ?_) ?_ w3
          · have := hc m hm r h1
            rw [hc n hn t h2] at this
            exact (Option.some.inj this).symm
          · cases hcur : cur with
            | none => exact absurd hcur hd.1
            | some c =>
              obtain ⟨m, hm, em⟩ := hc' c hcur
              refine ⟨m, hm, c, r, em, htn, ?_⟩
              rintro rfl
              exact hd.2 hcur.symm
        · rw [List.flatten_cons, w4, slice_drop hs]
        · cases w2 with
          | @cons _ b rest _ _ q1 q2 =>
            refine ⟨?_, w5⟩
            have hq := (q1 n (by simp)).2
            have hb1 := ht.2.2.1
            have hget : ∀ i, i < b.length → b[i]? = data[e + i]? := by
              intro i hi
              have := congrArg (·[i]?) w4
              rw [List.flatten_cons, List.getElem?_append_left hi, List.getElem?_drop] at this
              exact this
            have h3 := ht.1
            obtain ⟨⟨g0, g1, g2⟩, g3⟩ := ht.2.1
            have hso : startOffset data (n.offset - 3) = e := he
            refine ⟨fun r hr => ?_, ?_⟩
            · have hl2 := congrArg List.length hr
              rw [List.length_append, hlen] at hl2
              simp only [List.length_cons, List.length_nil] at hl2
              have hat : ∀ i, i < 3 → data[e - 3 + i]? = [(0 : UInt8), 0, 1][i]? := by
                intro i hi
                have := congrArg (·[r.length + i]?) hr
                rw [slice_get (by omega), List.getElem?_append_right (by omega), Nat.add_sub_cancel_left] at this
                rw [← this]
                congr 1
                omega
              obtain ⟨m, hm, eo⟩ := hf (e - 3) ⟨⟨hat 0 (by omega), hat 1 (by omega), hat 2 (by omega)⟩, by omega⟩ (by omega)
              rcases List.mem_append.mp hm with hm | hm
              · have := hg m hm
                omega
              · have := ha m hm
                omega
            · unfold startOffset at hso
              by_cases hz : 0 < n.offset - 3 ∧ data[n.offset - 3 - 1]? = some 0
              · rw [if_pos hz] at hso
                right
                refine ⟨?_, ⟨?_, ?_, ?_⟩, by omega⟩
                · rw [hget 0 (by omega), ← hz.2, hso]; rfl
                · rw [hget 1 (by omega), show e + 1 = n.offset - 3 from by omega]; exact g0
                · rw [hget 2 (by omega), show e + 2 = n.offset - 3 + 1 from by omega]; exact g1
                · rw [hget 3 (by omega), show e + 3 = n.offset - 3 + 2 from by omega]; exact g2
              · rw [if_neg hz] at hso
                left
                refine ⟨⟨⟨?_, ?_, ?_⟩, by omega⟩, ?_⟩
                · rw [hget 0 (by omega), ← hso]; exact g0
                · rw [hget 1 (by omega), ← hso]; exact g1
                · rw [hget 2 (by omega), ← hso]; exact g2
                · intro hlast
                  rw [List.getLast?_eq_getElem?, hlen] at hlast
                  by_cases h0 : s < e
                  · rw [slice_get (by omega), show s + (e - s - 1) = n.offset - 3 - 1 from by omega] at hlast
                    exact hz ⟨by omega, hlast⟩
                  · rw [List.getElem?_eq_none (by omega)] at hlast
                    cases hlast
        · rw [List.length_cons, List.length_cons, w6]
      · have hcur : cur = none ∨ cur = some r := by
          by_cases k : cur = none
          · exact .inl k
          · refine .inr ?_
            refine Classical.byContradiction fun k2 => hd ⟨k, fun e => k2 e.symm⟩
        refine hmore (some r) (fun m hm t h1 => ?_) (fun t h1 => ?_) (fun t ht => ⟨n, by simp, by rw [htn, ht]⟩) (by
          rw [points, htn]
          dsimp only
          rw [if_neg hd])
        · have := hc m hm t h1
          rcases hcur with k | k
          · rw [k] at this; cases this
          · rw [← this, k]
        · rw [htn] at h1; exact h1

end H264.Script
