import Verif.Spec.Pieces
import Verif.Props.Stream
import Verif.Props.Length

/-
C67: a stream can be parsed in pieces.
-/

namespace H264.Props
open H264 H264.Spec

/-! ### The start codes of two pieces -/

theorem isStart_append_left {a b : List UInt8} {p : Nat} (h : isStart a p) : isStart (a ++ b) p := by
  obtain ⟨⟨h1, h2, h3⟩, h4⟩ := h
  refine ⟨⟨?_, ?_, ?_⟩, by rw [List.length_append]; omega⟩ <;> rw [List.getElem?_append_left (by omega)] <;> assumption

theorem isStart_append_right {a b : List UInt8} {q : Nat} : isStart (a ++ b) (q + a.length) ↔ isStart b q := by
  unfold isStart at3
  rw [List.getElem?_append_right (by omega), List.getElem?_append_right (by omega), List.getElem?_append_right (by omega), List.length_append,
    show q + a.length - a.length = q by omega, show q + a.length + 1 - a.length = q + 1 by omega,
    show q + a.length + 2 - a.length = q + 2 by omega]
  constructor
  · rintro ⟨h1, h2⟩; exact ⟨h1, by omega⟩
  · rintro ⟨h1, h2⟩; exact ⟨h1, by omega⟩

/-- The beginning of the second piece. -/
theorem cut_zero {a b : List UInt8} (h : Cut a b) : b[0]? = some 0 ∧ b[1]? = some 0 := by
  rcases h.after with ⟨⟨⟨h1, h2, _⟩, _⟩, _⟩ | ⟨h1, ⟨h2, _⟩, _⟩
  · exact ⟨h1, h2⟩
  · exact ⟨h1, h2⟩

theorem isStart_cut {a b : List UInt8} (h : Cut a b) (p : Nat) :
    isStart (a ++ b) p ↔ isStart a p ∨ ∃ q, isStart b q ∧ p = q + a.length := by
  obtain ⟨hb0, hb1⟩ := cut_zero h
  constructor
  · intro hp
    by_cases hpa : a.length ≤ p
    · refine .inr ⟨p - a.length, ?_, by omega⟩
      rw [← isStart_append_right (a := a), show p - a.length + a.length = p by omega]
      exact hp
    · left
      obtain ⟨⟨h1, h2, h3⟩, h4⟩ := hp
      have hin : p + 2 < a.length := by
        apply Decidable.byContradiction
        intro hc
        rw [List.getElem?_append_right (by omega)] at h3
        have : p + 2 - a.length = 0 ∨ p + 2 - a.length = 1 := by omega
        rcases this with e | e <;> rw [e] at h3
        · rw [hb0] at h3; cases h3
        · rw [hb1] at h3; cases h3
      rw [List.getElem?_append_left (by omega)] at h1 h2 h3
      refine ⟨⟨h1, h2, h3⟩, ?_⟩
      apply Decidable.byContradiction
      intro hc
      refine h.before (a.take p) ?_
      have e1 : a.drop p = [0, 0, 1] := by
        obtain ⟨g1, e1⟩ := List.getElem?_eq_some_iff.mp h1
        obtain ⟨g2, e2⟩ := List.getElem?_eq_some_iff.mp h2
        obtain ⟨g3, e3⟩ := List.getElem?_eq_some_iff.mp h3
        rw [List.drop_eq_getElem_cons g1, List.drop_eq_getElem_cons g2, List.drop_eq_getElem_cons g3, e1, e2, e3,
          List.drop_eq_nil_of_le (by omega)]
      rw [← e1, List.take_append_drop]
  · rintro (hp | ⟨q, hq, rfl⟩)
    · exact isStart_append_left hp
    · exact isStart_append_right.mpr hq

theorem starts_cut {a b : List UInt8} (h : Cut a b) : starts (a ++ b) = starts a ++ (starts b).map (· + a.length) := by
  refine sorted_ext (starts_sorted _) ?_ (fun p => ?_)
  · rw [List.pairwise_append]
    refine ⟨starts_sorted a, List.Pairwise.map _ (by intro x y h; show _ < _; omega) (starts_sorted b), fun x hx y hy => ?_⟩
    obtain ⟨q, _, rfl⟩ := List.mem_map.mp hy
    have := (mem_starts.mp hx).2
    omega
  · rw [mem_starts, isStart_cut h, List.mem_append, mem_starts, List.mem_map]
    constructor
    · rintro (h | ⟨q, hq, rfl⟩)
      · exact .inl h
      · exact .inr ⟨q, mem_starts.mpr hq, rfl⟩
    · rintro (h | ⟨q, hq, rfl⟩)
      · exact .inl h
      · exact .inr ⟨q, mem_starts.mp hq, rfl⟩

theorem startOffset_left {a b : List UInt8} {p : Nat} (hp : p < a.length) : startOffset (a ++ b) p = startOffset a p := by
  unfold startOffset
  rw [List.getElem?_append_left (by omega)]

theorem startOffset_right {a b : List UInt8} {q : Nat} (hq : q = 0 → a.getLast? ≠ some 0) :
    startOffset (a ++ b) (q + a.length) = startOffset b q + a.length := by
  unfold startOffset
  by_cases h0 : q = 0
  · subst h0
    rw [if_neg (c := 0 < 0 ∧ _) (fun k => absurd k.1 (by omega)), if_neg]
    rintro ⟨k1, k2⟩
    rw [List.getElem?_append_left (by omega), Nat.zero_add, ← List.getLast?_eq_getElem?] at k2
    exact hq rfl k2
  · have : (a ++ b)[q + a.length - 1]? = b[q - 1]? := by
      rw [List.getElem?_append_right (by omega)]; congr 1; omega
    rw [this]
    by_cases hz : b[q - 1]? = some 0
    · rw [if_pos ⟨by omega, hz⟩, if_pos ⟨by omega, hz⟩]; omega
    · rw [if_neg (fun k => hz k.2), if_neg (fun k => hz k.2)]

theorem entries_right {a b : List UInt8} : ∀ (qs : List Nat), (∀ q ∈ qs, q = 0 → a.getLast? ≠ some 0) → (∀ q ∈ qs, q + 3 ≤ b.length) →
    entries (a ++ b) (qs.map (· + a.length)) = (entries b qs).map (laterBy a.length)
  | [], _, _ => rfl
  | [q], h, _ => by
    simp only [List.map_cons, List.map_nil, entries, laterBy]
    rw [startOffset_right (h q (by simp)), List.length_append]
    congr 2 <;> omega
  | q :: r :: t, h, h' => by
    have ih := entries_right (a := a) (r :: t) (fun x hx => h x (List.mem_cons_of_mem _ hx)) (fun x hx => h' x (List.mem_cons_of_mem _ hx))
    simp only [List.map_cons, entries, laterBy] at ih ⊢
    rw [ih, startOffset_right (h q (by simp)), startOffset_right (h r (by simp))]
    congr 2 <;> omega

theorem entries_cut {a b : List UInt8} {qs : List Nat} {q : Nat} (hq : startOffset (a ++ b) (q + a.length) = a.length) : ∀ (ps : List Nat),
    (∀ p ∈ ps, p + 3 ≤ a.length) → entries (a ++ b) (ps ++ (q :: qs).map (· + a.length)) =
      entries a ps ++ entries (a ++ b) ((q :: qs).map (· + a.length))
  | [], _ => rfl
  | [p], h => by
    have := h p (by simp)
    simp only [List.map_cons, List.cons_append, List.nil_append, entries]
    rw [hq, startOffset_left (by omega)]
  | p :: r :: t, h => by
    have h1 := h p (by simp)
    have h2 := h r (by simp)
    have ih := entries_cut (a := a) (b := b) (qs := qs) hq (r :: t) (fun x hx => h x (List.mem_cons_of_mem _ hx))
    simp only [List.cons_append, entries] at ih ⊢
    rw [ih, startOffset_left (by omega), startOffset_left (by omega)]

/-- C67: the index of NAL units of two pieces together is that of the first, and that of the second moved by the length of the first. -/
theorem C67_index {a b : List UInt8} (h : Cut a b) (hl : (a ++ b).length < 2 ^ 64) :
    ∃ ia ib, findNaluIndices a = .val ia ∧ findNaluIndices b = .val ib ∧
      findNaluIndices (a ++ b) = .val (ia ++ ib.map (laterBy a.length)) := by
  rw [List.length_append] at hl
  refine ⟨_, _, C13_find_exact a (by omega), C13_find_exact b (by omega), ?_⟩
  rw [C13_find_exact _ (by rw [List.length_append]; omega), starts_cut h]
  have hgood : ∀ q ∈ starts b, q = 0 → a.getLast? ≠ some 0 := by
    rintro q hq rfl
    rcases h.after with ⟨_, h2⟩ | ⟨_, ⟨_, h2, _⟩, _⟩
    · exact h2
    · obtain ⟨⟨_, _, h3⟩, _⟩ := mem_starts.mp hq
      rw [h3] at h2
      cases h2
  have hlen : ∀ q ∈ starts b, q + 3 ≤ b.length := fun q hq => by have := (mem_starts.mp hq).2; omega
  have hlena : ∀ p ∈ starts a, p + 3 ≤ a.length := fun q hq => by have := (mem_starts.mp hq).2; omega
  cases hs : starts b with
  | nil =>
    exfalso
    rcases h.after with ⟨h1, _⟩ | ⟨_, h1⟩ <;> · have := mem_starts.mpr h1; rw [hs] at this; cases this
  | cons q qs =>
    have hfirst : startOffset b q = 0 := by
      have hsort := starts_sorted b
      rw [hs, List.pairwise_cons] at hsort
      unfold startOffset
      rcases h.after with ⟨h1, _⟩ | ⟨h0, h1⟩
      · have hm := mem_starts.mpr h1
        rw [hs] at hm
        rcases List.mem_cons.mp hm with hm | hm
        · subst hm; rfl
        · have := hsort.1 _ hm; omega
      · have hm := mem_starts.mpr h1
        rw [hs] at hm
        rcases List.mem_cons.mp hm with hm | hm
        · subst hm; rw [if_pos ⟨by omega, h0⟩]
        · have := hsort.1 _ hm
          split <;> omega
    have h3 : startOffset (a ++ b) (q + a.length) = a.length := by
      rw [startOffset_right (hgood q (by rw [hs]; simp)), hfirst, Nat.zero_add]
    rw [entries_cut h3 _ hlena, entries_right _ (by rw [← hs]; exact hgood) (by rw [← hs]; exact hlen)]

/-! ### Parsing -/

theorem inOrder_append {parse : List UInt8 → Store → Nat → Res (Option NalUnit × Store × Nat)} {vs : List (Nat × List UInt8)} {σ' : Store}
    {c' : Nat} : ∀ {us : List (Nat × List UInt8)} {σ : Store} {c : Nat} {ns : List NalUnit}, InOrder parse (us ++ vs) σ c ns σ' c' ↔
      ∃ n1 n2 σ1 c1, ns = n1 ++ n2 ∧ InOrder parse us σ c n1 σ1 c1 ∧ InOrder parse vs σ1 c1 n2 σ' c'
  | [], σ, c, ns => by
    constructor
    · intro h; exact ⟨[], ns, σ, c, rfl, .nil σ c, h⟩
    · rintro ⟨n1, n2, σ1, c1, rfl, h1, h2⟩; cases h1; exact h2
  | u :: us, σ, c, ns => by
    constructor
    · intro h
      cases h with
      | skip h1 h2 =>
        obtain ⟨n1, n2, σ1, c1, rfl, h3, h4⟩ := inOrder_append.mp h2
        exact ⟨n1, n2, σ1, c1, rfl, .skip h1 h3, h4⟩
      | unit h1 h2 =>
        obtain ⟨n1, n2, σ1, c1, rfl, h3, h4⟩ := inOrder_append.mp h2
        exact ⟨_ :: n1, n2, σ1, c1, rfl, .unit h1 h3, h4⟩
    · rintro ⟨n1, n2, σ1, c1, rfl, h1, h2⟩
      cases h1 with
      | skip h1 h3 => exact .skip h1 (inOrder_append.mpr ⟨_, _, _, _, rfl, h3, h2⟩)
      | unit h1 h3 => exact .unit h1 (inOrder_append.mpr ⟨_, _, _, _, rfl, h3, h2⟩)

theorem inOrder_moved {parse : List UInt8 → Store → Nat → Res (Option NalUnit × Store × Nat)} {k : Nat} {σ' : Store}
    {c' : Nat} : ∀ {us : List (Nat × List UInt8)} {σ : Store} {c : Nat} {ns : List NalUnit},
      InOrder parse (us.map fun u => (u.1 + k, u.2)) σ c ns σ' c' ↔ ∃ ms, ns = ms.map (moved k) ∧ InOrder parse us σ c ms σ' c'
  | [], σ, c, ns => by
    constructor
    · intro h; cases h; exact ⟨[], rfl, .nil _ _⟩
    · rintro ⟨ms, rfl, h⟩; cases h; exact .nil _ _
  | u :: us, σ, c, ns => by
    constructor
    · intro h
      cases h with
      | skip h1 h2 =>
        obtain ⟨ms, rfl, h3⟩ := inOrder_moved.mp h2
        exact ⟨ms, rfl, .skip h1 h3⟩
      | unit h1 h2 =>
        obtain ⟨ms, rfl, h3⟩ := inOrder_moved.mp h2
        exact ⟨_ :: ms, rfl, .unit h1 h3⟩
    · rintro ⟨ms, rfl, h⟩
      cases h with
      | skip h1 h3 => exact .skip h1 (inOrder_moved.mpr ⟨_, rfl, h3⟩)
      | @unit off _ _ _ _ _ _ _ _ _ _ h1 h3 =>
        have := InOrder.unit (off := off + k) h1 ((inOrder_moved (k := k)).mpr ⟨_, rfl, h3⟩)
        exact this

/-- The units of a stream, as `C18_in_order` has them. -/
def unitsOf (data : List UInt8) : List (Nat × List UInt8) :=
  (entries data (starts data)).map fun e => (e.payload_start_offset, sliceOf data e)

theorem unitsOf_cut {a b : List UInt8} (h : Cut a b) (hl : (a ++ b).length < 2 ^ 64) :
    unitsOf (a ++ b) = unitsOf a ++ (unitsOf b).map fun u => (u.1 + a.length, u.2) := by
  obtain ⟨ia, ib, h1, h2, h3⟩ := C67_index h hl
  rw [C13_find_exact _ hl] at h3
  rw [List.length_append] at hl
  rw [C13_find_exact _ (by omega)] at h1 h2
  injection h1 with h1
  injection h2 with h2
  injection h3 with h3
  unfold unitsOf
  rw [h3, ← h1, ← h2, List.map_append, List.map_map, List.map_map]
  congr 1
  · refine List.map_congr_left fun e he => ?_
    have := (entries_inside a (starts a) (starts_sorted a) (fun p hp => mem_starts.mp hp) e he).2.2
    simp only [sliceOf]
    rw [List.drop_append_of_le_length (by omega), List.take_append_of_le_length (by rw [List.length_drop]; omega)]
  · refine List.map_congr_left fun e he => ?_
    simp only [Function.comp, laterBy, sliceOf]
    rw [List.drop_append, List.drop_eq_nil_of_le (by omega), List.nil_append, Nat.add_sub_cancel]

/-- C67: parsing two pieces together is parsing the first and then the second, with the parser state that the first leaves; the offsets of
the NAL units of the second are moved. -/
theorem C67_two_pieces (nd : Bool) (opts : ParsingOptions) {a b : List UInt8} (h : Cut a b) (hl : (a ++ b).length < 2 ^ 61) (σ : Store) (c : Nat)
    (bs : Bitstream) (σ' : Store) (c' : Nat) :
    parseBitstream nd opts (a ++ b) σ c = .val (bs, σ', c') ↔
      bs.parsing_options = {} ∧ ∃ ba σ1 c1 bb, parseBitstream nd opts a σ c = .val (ba, σ1, c1) ∧
        parseBitstream nd opts b σ1 c1 = .val (bb, σ', c') ∧ bs.nal_units = ba.nal_units ++ bb.nal_units.map (moved a.length) := by
  have hl' := hl
  rw [List.length_append] at hl'
  rw [C18_in_order nd opts _ hl]
  refine and_congr_right fun _ => ?_
  show InOrder _ (unitsOf (a ++ b)) σ c _ σ' c' ↔ _
  rw [unitsOf_cut h (by omega), inOrder_append]
  constructor
  · rintro ⟨n1, n2, σ1, c1, e, h1, h2⟩
    obtain ⟨ms, rfl, h3⟩ := inOrder_moved.mp h2
    exact ⟨⟨{}, n1⟩, σ1, c1, ⟨{}, ms⟩, (C18_in_order nd opts a (by omega) σ c _ σ1 c1).mpr ⟨rfl, h1⟩,
      (C18_in_order nd opts b (by omega) σ1 c1 _ σ' c').mpr ⟨rfl, h3⟩, e⟩
  · rintro ⟨ba, σ1, c1, bb, h1, h2, e⟩
    exact ⟨_, _, σ1, c1, e, ((C18_in_order nd opts a (by omega) σ c _ σ1 c1).mp h1).2,
      inOrder_moved.mpr ⟨_, rfl, ((C18_in_order nd opts b (by omega) σ1 c1 _ σ' c').mp h2).2⟩⟩

theorem cut_append {a b : List UInt8} (h : Cut a b) (r : List UInt8) : Cut a (b ++ r) := by
  refine ⟨h.before, ?_⟩
  rcases h.after with ⟨h1, h2⟩ | ⟨h1, h2⟩
  · exact .inl ⟨isStart_append_left h1, h2⟩
  · refine .inr ⟨?_, isStart_append_left h2⟩
    obtain ⟨g, _⟩ := List.getElem?_eq_some_iff.mp h1
    rw [List.getElem?_append_left g]
    exact h1

theorem moved_zero (n : NalUnit) : moved 0 n = n := rfl

theorem fed_moved {nd : Bool} {opts : ParsingOptions} {k : Nat} {σ' : Store} {c' : Nat} : ∀ {ps : List (List UInt8)} {off : Nat} {σ : Store} {c : Nat}
    {ns : List NalUnit}, Fed nd opts (off + k) ps σ c ns σ' c' ↔ ∃ ms, ns = ms.map (moved k) ∧ Fed nd opts off ps σ c ms σ' c'
  | [], off, σ, c, ns => by
    constructor
    · intro h; cases h; exact ⟨[], rfl, .nil _ _ _⟩
    · rintro ⟨ms, rfl, h⟩; cases h; exact .nil _ _ _
  | p :: ps, off, σ, c, ns => by
    have e : ∀ l : List NalUnit, l.map (moved (off + k)) = (l.map (moved off)).map (moved k) := by
      intro l
      rw [List.map_map]
      refine List.map_congr_left fun n _ => ?_
      simp only [Function.comp, moved, Nat.add_assoc]
    constructor
    · intro h
      cases h with
      | cons h1 h2 =>
        rw [show off + k + p.length = off + p.length + k by omega] at h2
        obtain ⟨ms, rfl, h3⟩ := fed_moved.mp h2
        exact ⟨_, by rw [List.map_append, e], .cons h1 h3⟩
    · rintro ⟨ms, rfl, h⟩
      cases h with
      | cons h1 h2 =>
        rw [List.map_append, ← e]
        refine .cons h1 ?_
        rw [show off + k + p.length = off + p.length + k by omega]
        exact fed_moved.mpr ⟨_, rfl, h2⟩

/-- C67: parsing a stream at once is parsing its pieces one after the other, with the same parser state, whatever the number of pieces. -/
theorem C67_pieces (nd : Bool) (opts : ParsingOptions) : ∀ {ps : List (List UInt8)} (_ : Cuts ps) (_ : ps.flatten.length < 2 ^ 61) (σ : Store) (c : Nat)
    (bs : Bitstream) (σ' : Store) (c' : Nat),
    parseBitstream nd opts ps.flatten σ c = .val (bs, σ', c') ↔ bs.parsing_options = {} ∧ Fed nd opts 0 ps σ c bs.nal_units σ' c'
  | [], _, _, σ, c, bs, σ', c' => by
    rw [C18_in_order nd opts _ (by decide)]
    refine and_congr_right fun _ => ?_
    constructor
    · intro h; cases hb : bs.nal_units <;> rw [hb] at h <;> cases h; exact .nil _ _ _
    · intro h; generalize bs.nal_units = l at h; cases h; exact .nil _ _
  | [a], _, hl, σ, c, bs, σ', c' => by
    rw [List.flatten_singleton]
    constructor
    · intro h
      refine ⟨((C18_in_order nd opts a (by simpa using hl) σ c bs σ' c').mp h).1, ?_⟩
      have := Fed.cons (off := 0) h (.nil _ _ _)
      rw [List.append_nil, List.map_congr_left (fun n _ => moved_zero n), List.map_id'] at this
      exact this
    · rintro ⟨h1, h⟩
      generalize hb : bs.nal_units = l at h
      cases h with
      | cons h2 h3 =>
        rename_i bs1 _
        cases h3
        rw [List.append_nil, List.map_congr_left (fun n _ => moved_zero n), List.map_id'] at hb
        have h4 := ((C18_in_order nd opts a (by simpa using hl) σ c bs1 σ' c').mp h2).1
        have : bs = bs1 := by
          cases bs; cases bs1
          cases hb; cases h1; cases h4
          rfl
        rw [this]
        exact h2
  | a :: b :: ps, hc, hl, σ, c, bs, σ', c' => by
    have hl' := hl
    rw [List.flatten_cons] at hl
    rw [List.flatten_cons, List.length_append] at hl'
    have hcut : Cut a (b :: ps).flatten := by rw [List.flatten_cons]; exact cut_append hc.1 _
    rw [List.flatten_cons, C67_two_pieces nd opts hcut hl]
    refine and_congr_right fun _ => ?_
    constructor
    · rintro ⟨ba, σ1, c1, bb, h1, h2, e⟩
      have h3 := ((C67_pieces nd opts hc.2 (by omega) σ1 c1 bb σ' c').mp h2).2
      rw [e]
      have h4 := Fed.cons (off := 0) h1 (fed_moved (k := a.length).mpr ⟨_, rfl, h3⟩)
      rw [List.map_congr_left (l := ba.nal_units) (fun n _ => moved_zero n), List.map_id'] at h4
      exact h4
    · intro h
      generalize bs.nal_units = l at h
      cases h with
      | cons h2 h3 =>
        obtain ⟨ms, rfl, h4⟩ := fed_moved.mp h3
        refine ⟨_, _, _, ⟨{}, ms⟩, h2, (C67_pieces nd opts hc.2 (by omega) _ _ _ σ' c').mpr ⟨rfl, h4⟩, ?_⟩
        rw [List.map_congr_left (fun n _ => moved_zero n), List.map_id']

/-! ### Length-prefixed streams -/

theorem drop_later (a b : List UInt8) (n : Nat) : (a ++ b).drop (n + a.length) = b.drop n := by
  rw [Nat.add_comm, ← List.drop_drop, List.drop_left]

/-- The NAL units of a length-prefixed stream are the same in a stream in which other bytes precede. -/
theorem lengthUnits_later {a b : List UInt8} {k pos : Nat} {vs : List (Nat × List UInt8)} (h : LengthUnits b k pos vs) :
    LengthUnits (a ++ b) k (pos + a.length) (vs.map fun u => (u.1 + a.length, u.2)) := by
  induction h with
  | @stop pos hs =>
    refine .stop (fun size h1 h2 h3 => hs size ?_ h2 ?_)
    · rw [drop_later] at h1; exact h1
    · rw [List.length_append] at h3; omega
  | @next pos size us h1 h2 h3 _ ih =>
    have e1 : pos + k + size + a.length = pos + a.length + k + size := by omega
    have e2 : pos + k + a.length = pos + a.length + k := by omega
    rw [e1] at ih
    have := LengthUnits.next (l := a ++ b) (k := k) (pos := pos + a.length) (size := size) (by rw [drop_later]; exact h1) h2
      (by rw [List.length_append]; omega) ih
    rw [← e2, drop_later] at this
    exact this

/-- The NAL units of a length-prefixed stream that begins with whole NAL units. -/
theorem lengthUnits_join (l : List UInt8) (k : Nat) (b : List UInt8) (rest : List (Nat × List UInt8)) : ∀ (us : List (List UInt8)) (pos : Nat),
    (∀ u ∈ us, u ≠ [] ∧ u.length < 256 ^ k) → l.drop pos = framed k us ++ b → pos ≤ l.length →
    LengthUnits l k (pos + (framed k us).length) rest → LengthUnits l k pos (framedUnits k pos us ++ rest)
  | [], pos, _, _, _, hr => hr
  | u :: us, pos, hu, hd, hp, hr => by
    obtain ⟨hne, hul⟩ := hu u (by simp)
    have hlen : l.length - pos = k + u.length + (framed k us).length + b.length := by
      rw [← List.length_drop, hd]; simp [framed, be_length]; omega
    have ht : (l.drop pos).take k = be k u.length := by
      rw [hd, framed, List.append_assoc, List.append_assoc, List.take_append, be_length, List.take_of_length_le (by rw [be_length]; omega)]
      simp
    have hdrop : l.drop (pos + k) = u ++ (framed k us ++ b) := by
      rw [← List.drop_drop, hd, framed, List.append_assoc, List.append_assoc, List.drop_append, be_length,
        List.drop_eq_nil_of_le (by rw [be_length]; omega)]
      simp
    have hdrop2 : l.drop (pos + k + u.length) = framed k us ++ b := by
      rw [← List.drop_drop, hdrop, List.drop_append, List.drop_length, Nat.sub_self]; simp
    have hbytes : (l.drop (pos + k)).take u.length = u := by
      rw [hdrop, List.take_append, List.take_length, Nat.sub_self]; simp
    have h0 : u.length ≠ 0 := by simpa using hne
    have hend : pos + (framed k (u :: us)).length = pos + k + u.length + (framed k us).length := by
      simp only [framed, List.length_append, be_length]; omega
    rw [hend] at hr
    have := LengthUnits.next (l := l) (k := k) (pos := pos) (size := u.length) (by rw [ht, ofBE_be _ _ hul]) h0 (by omega)
      (lengthUnits_join l k b rest us (pos + k + u.length) (fun x hx => hu x (by simp [hx])) hdrop2 (by omega) hr)
    rw [hbytes] at this
    exact this

/-- C67: a length-prefixed stream that begins with whole NAL units and goes on with anything is parsed like its two pieces, one after the
other with the same state. -/
theorem C67_length_prefixed (nd : Bool) (opts : ParsingOptions) {k : Nat} (hk : 0 < k) (hk7 : k ≤ 7) {us : List (List UInt8)}
    (hu : ∀ u ∈ us, u ≠ [] ∧ u.length < 256 ^ k) {b : List UInt8} (hl : (framed k us ++ b).length < 2 ^ 61) (σ : Store) (c : Nat)
    (bs : Bitstream) (σ' : Store) (c' : Nat) :
    parseBitstreamNALULength nd opts (framed k us ++ b) k σ c = .val (bs, σ', c') ↔
      bs.parsing_options = {} ∧ ∃ ba σ1 c1 bb, parseBitstreamNALULength nd opts (framed k us) k σ c = .val (ba, σ1, c1) ∧
        parseBitstreamNALULength nd opts b k σ1 c1 = .val (bb, σ', c') ∧
        bs.nal_units = ba.nal_units ++ bb.nal_units.map (moved (framed k us).length) := by
  have hl' := hl
  rw [List.length_append] at hl'
  obtain ⟨ws, hw, hw'⟩ := C17_in_order_upto7_partial nd opts (framed k us ++ b) hl hk hk7
  obtain ⟨vs, hv, hv'⟩ := C17_in_order_upto7_partial nd opts b (by omega) hk hk7
  have hlater := lengthUnits_later (a := framed k us) hv
  rw [Nat.zero_add] at hlater
  have e := LengthUnits.unique hw (lengthUnits_join _ k b _ us 0 hu rfl (by omega) (by rw [Nat.zero_add]; exact hlater))
  rw [hw', e]
  refine and_congr_right fun _ => ?_
  constructor
  · rintro ⟨ns, h1, h2⟩
    obtain ⟨n1, n2, σ1, c1, rfl, h3, h4⟩ := inOrder_append.mp h1
    obtain ⟨ms, rfl, h5⟩ := inOrder_moved.mp h4
    refine ⟨⟨{}, _⟩, σ1, c1, ⟨{}, _⟩, (C17_framed_partial nd opts us hk hu (by omega) σ c _ σ1 c1).mpr ⟨rfl, n1, h3, rfl⟩,
      (hv' σ1 c1 _ σ' c').mpr ⟨rfl, ms, h5, rfl⟩, ?_⟩
    rw [h2, List.map_append, List.map_map, List.map_map]
    rfl
  · rintro ⟨ba, σ1, c1, bb, h1, h2, h3⟩
    obtain ⟨_, n1, g1, e1⟩ := (C17_framed_partial nd opts us hk hu (by omega) σ c _ σ1 c1).mp h1
    obtain ⟨_, n2, g2, e2⟩ := (hv' σ1 c1 _ σ' c').mp h2
    refine ⟨_, inOrder_append.mpr ⟨n1, _, σ1, c1, rfl, g1, inOrder_moved.mpr ⟨n2, rfl, g2⟩⟩, ?_⟩
    rw [h3, e1, e2, List.map_append, List.map_map, List.map_map]
    rfl

/-! ### Examples -/

theorem cut_last {a b : List UInt8} (h : a.getLast? ≠ some 1)
    (h' : (isStart b 0 ∧ a.getLast? ≠ some 0) ∨ (b[0]? = some 0 ∧ isStart b 1)) : Cut a b := by
  refine ⟨fun r e => h ?_, h'⟩
  rw [e, List.getLast?_append]
  rfl

/-- The stream of `Props/Stream.lean` in three pieces: one with the SPS and the SEI message, one with the PPS, one with the rest. -/
example : Cuts [annexB (exStreamUnits.take 2), annexB ((exStreamUnits.drop 2).take 1), annexB (exStreamUnits.drop 3)] ∧
    [annexB (exStreamUnits.take 2), annexB ((exStreamUnits.drop 2).take 1), annexB (exStreamUnits.drop 3)].flatten = annexB exStreamUnits :=
  ⟨⟨cut_last (by decide +kernel) (by decide +kernel), cut_last (by decide +kernel) (by decide +kernel), trivial⟩, by decide +kernel⟩

/-- A length-prefixed stream of which the second piece is cut off within a NAL unit. -/
example : (∀ u ∈ ([[9, 16, 128], [6, 128]] : List (List UInt8)), u ≠ [] ∧ u.length < 256 ^ 4) ∧
    framed 4 [[9, 16, 128], [6, 128]] ++ [0, 0, 0, 2, 10] = [0, 0, 0, 3, 9, 16, 128, 0, 0, 0, 2, 6, 128, 0, 0, 0, 2, 10] := by decide +kernel

/-- A start code with nothing after it: the first piece alone has no NAL unit after it, the pieces together have one. -/
example : findNaluIndices [0, 0, 1] = .val [] ∧ findNaluIndices [0, 0, 1, 10] = .val [⟨0, 3, 1⟩] ∧
    findNaluIndices ([0, 0, 1] ++ [0, 0, 1, 10]) = .val [⟨0, 3, 0⟩, ⟨3, 6, 1⟩] := by decide +kernel

/-- A zero byte before a start code of three bytes belongs to the start code, unless a piece ends with it. -/
example : findNaluIndices [0, 0, 1, 10, 0] = .val [⟨0, 3, 2⟩] ∧
    findNaluIndices ([0, 0, 1, 10, 0] ++ [0, 0, 1, 10]) = .val [⟨0, 3, 1⟩, ⟨4, 8, 1⟩] := by decide +kernel

end H264.Props
