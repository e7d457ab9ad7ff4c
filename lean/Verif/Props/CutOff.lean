import Verif.Props.Pieces
import Verif.Props.Beginning
import Verif.Props.Tool

/-
C85: what is parsed from a stream that has been cut off.
-/

namespace H264.Props
open H264 H264.Spec

/-! ### The start codes of the beginning of a stream -/

theorem isStart_of_left {a b : List UInt8} {p : Nat} (h : isStart (a ++ b) p) (hp : p + 3 < a.length) : isStart a p := by
  obtain ⟨⟨h1, h2, h3⟩, _⟩ := h
  rw [List.getElem?_append_left (by omega)] at h1 h2 h3
  exact ⟨⟨h1, h2, h3⟩, hp⟩

theorem starts_beginning (a b : List UInt8) : ∃ later, starts (a ++ b) = starts a ++ later ∧
    ∀ q ∈ later, isStart (a ++ b) q ∧ ¬ isStart a q ∧ a.length ≤ q + 3 := by
  refine ⟨(starts (a ++ b)).filter fun q => decide (a.length ≤ q + 3), ?_, fun q hq => ?_⟩
  · refine sorted_ext (starts_sorted _) ?_ (fun p => ?_)
    · rw [List.pairwise_append]
      refine ⟨starts_sorted a, (starts_sorted _).filter _, fun x hx y hy => ?_⟩
      have := (mem_starts.mp hx).2
      have := of_decide_eq_true (List.mem_filter.mp hy).2
      omega
    · rw [List.mem_append, List.mem_filter, mem_starts, mem_starts, decide_eq_true_eq]
      constructor
      · intro h
        by_cases hp : p + 3 < a.length
        · exact .inl (isStart_of_left h hp)
        · exact .inr ⟨h, by omega⟩
      · rintro (h | ⟨h, _⟩)
        · exact isStart_append_left h
        · exact h
  · rw [List.mem_filter, mem_starts, decide_eq_true_eq] at hq
    exact ⟨hq.1, fun h => absurd h.2 (by omega), hq.2⟩

theorem entries_to (l : List UInt8) (p : Nat) (r : List Nat) : ∀ ps,
    entries l (ps ++ p :: r) = entriesTo l (startOffset l p) ps ++ entries l (p :: r)
  | [] => rfl
  | [q] => rfl
  | q :: s :: t => by
    have := entries_to l p r (s :: t)
    simp only [List.cons_append, entries, entriesTo] at this ⊢
    rw [this]

theorem startOffset_le (l : List UInt8) (p : Nat) : startOffset l p ≤ p ∧ p ≤ startOffset l p + 1 := by
  unfold startOffset
  split <;> omega

theorem entriesTo_left {a b : List UInt8} {e : Nat} : ∀ {ps : List Nat}, (∀ p ∈ ps, p < a.length) →
    entriesTo (a ++ b) e ps = entriesTo a e ps
  | [], _ => rfl
  | [p], h => by simp only [entriesTo]; rw [startOffset_left (h p (by simp))]
  | p :: q :: r, h => by
    have := entriesTo_left (e := e) (a := a) (b := b) (ps := q :: r) (fun x hx => h x (List.mem_cons_of_mem _ hx))
    simp only [entriesTo] at this ⊢
    rw [this, startOffset_left (h p (by simp)), startOffset_left (h q (by simp))]

theorem entriesTo_inside {a : List UInt8} {e : Nat} (he : e ≤ a.length) : ∀ {ps : List Nat}, (∀ p ∈ ps, p + 3 ≤ a.length) →
    ∀ x ∈ entriesTo a e ps, x.payload_start_offset + x.payload_size ≤ a.length
  | [], _, x, hx => by cases hx
  | [p], h, x, hx => by
    have := h p (by simp)
    simp only [entriesTo, List.mem_singleton] at hx
    subst hx
    dsimp only
    omega
  | p :: q :: r, h, x, hx => by
    have h1 := h p (by simp)
    have h2 := h q (by simp)
    have h3 := startOffset_le a q
    simp only [entriesTo, List.mem_cons] at hx
    rcases hx with rfl | hx
    · dsimp only; omega
    · exact entriesTo_inside he (ps := q :: r) (fun x hx => h x (List.mem_cons_of_mem _ hx)) x hx

theorem sliceOf_left {a b : List UInt8} {x : NaluIndex} (h : x.payload_start_offset + x.payload_size ≤ a.length) :
    sliceOf (a ++ b) x = sliceOf a x := by
  unfold sliceOf
  rw [List.drop_append_of_le_length (by omega), List.take_append_of_le_length (by rw [List.length_drop]; omega)]

/-- The NAL units of a stream and of its beginning `a`: all but the last of `a` are the same. -/
theorem units_cutOff (a b : List UInt8) : ∃ us la lb, unitsOf a = us ++ la ∧ unitsOf (a ++ b) = us ++ lb ∧
    ((la = [] ∧ ∀ u ∈ lb, a.length ≤ u.1) ∨ ∃ p m lb', la = [(p, a.drop p)] ∧ lb = (p, ((a ++ b).drop p).take m) :: lb' ∧
      p < a.length ∧ p + m ≤ (a ++ b).length ∧ a.length ≤ p + m + 4 ∧ (∀ u ∈ lb', a.length ≤ u.1) ∧
      ((∀ q, isStart (a ++ b) q → ¬ isStart a q → a.length ≤ startOffset (a ++ b) q) → a.length ≤ p + m)) := by
  obtain ⟨later, e, hl⟩ := starts_beginning a b
  have hlate : ∀ {r : List Nat}, (∀ q ∈ r, a.length ≤ q + 3) →
      ∀ u ∈ (entries (a ++ b) r).map (fun e => (e.payload_start_offset, sliceOf (a ++ b) e)), a.length ≤ u.1 := by
    intro r hr u hu
    obtain ⟨x, hx, rfl⟩ := List.mem_map.mp hu
    have : x.payload_start_offset ∈ (entries (a ++ b) r).map NaluIndex.payload_start_offset := List.mem_map_of_mem hx
    rw [entries_map] at this
    obtain ⟨q, hq, h⟩ := List.mem_map.mp this
    have := hr q hq
    dsimp only at h ⊢
    omega
  rcases List.eq_nil_or_concat (starts a) with h0 | ⟨ps, p, h0⟩
  · refine ⟨[], [], unitsOf (a ++ b), by unfold unitsOf; rw [h0]; rfl, rfl, .inl ⟨rfl, ?_⟩⟩
    unfold unitsOf
    rw [e, h0, List.nil_append]
    exact hlate fun q hq => (hl q hq).2.2
  · rw [List.concat_eq_append] at h0
    have hp : ∀ q ∈ starts a, q + 3 < a.length := fun q hq => (mem_starts.mp hq).2
    rw [h0] at hp
    have hpp := hp p (by simp)
    have hb := startOffset_le a p
    have hso : startOffset (a ++ b) p = startOffset a p := startOffset_left (by omega)
    refine ⟨(entriesTo a (startOffset a p) ps).map fun e => (e.payload_start_offset, sliceOf a e), [(p + 3, a.drop (p + 3))],
      (entries (a ++ b) (p :: later)).map fun e => (e.payload_start_offset, sliceOf (a ++ b) e), ?_, ?_, .inr ?_⟩
    · unfold unitsOf
      rw [h0, entries_to, List.map_append]
      congr 1
      simp only [entries, List.map_cons, List.map_nil, sliceOf]
      rw [List.take_of_length_le (by rw [List.length_drop]; exact Nat.le_refl _)]
    · unfold unitsOf
      rw [e, h0, List.append_assoc, List.singleton_append, entries_to, List.map_append, hso,
        entriesTo_left (fun q hq => by have := hp q (by simp [hq]); omega)]
      congr 1
      refine List.map_congr_left fun x hx => ?_
      rw [sliceOf_left (entriesTo_inside (by omega) (fun q hq => by have := hp q (by simp [hq]); omega) x hx)]
    · cases later with
      | nil =>
        refine ⟨p + 3, (a ++ b).length - (p + 3), [], rfl, rfl, hpp, ?_, ?_, by simp, fun _ => ?_⟩ <;> rw [List.length_append] <;> omega
      | cons q r =>
        have h1 := hl q (by simp)
        have h2 := startOffset_le (a ++ b) q
        have h3 := h1.1.2
        rw [List.length_append] at h3
        refine ⟨p + 3, startOffset (a ++ b) q - (p + 3), _, rfl, rfl, hpp, ?_, by omega, ?_, fun h => ?_⟩
        · rw [List.length_append]; omega
        · exact hlate fun s hs => (hl s hs).2.2
        · have := h q h1.1 h1.2.1
          omega

theorem inOrder_unique {parse : List UInt8 → Store → Nat → Res (Option NalUnit × Store × Nat)} {us : List (Nat × List UInt8)} {σ σ1 : Store}
    {c c1 : Nat} {ns : List NalUnit} (h : InOrder parse us σ c ns σ1 c1) {σ2 : Store} {c2 : Nat} {ms : List NalUnit}
    (h' : InOrder parse us σ c ms σ2 c2) : ns = ms ∧ σ1 = σ2 ∧ c1 = c2 := by
  induction h generalizing ms with
  | nil => cases h'; exact ⟨rfl, rfl, rfl⟩
  | skip h1 _ ih =>
    cases h' with
    | skip h3 h4 =>
      rw [h1] at h3
      injection h3 with h3
      injection h3 with _ h3
      injection h3 with _ h3
      subst h3
      exact ih h4
    | unit h3 _ => rw [h1] at h3; injection h3 with h3; injection h3 with h3; cases h3
  | unit h1 _ ih =>
    cases h' with
    | skip h3 _ => rw [h1] at h3; injection h3 with h3; injection h3 with h3; cases h3
    | unit h3 h4 =>
      rw [h1] at h3
      injection h3 with h3
      injection h3 with h5 h3
      injection h3 with h6 h7
      injection h5 with h5
      subst h5 h6 h7
      obtain ⟨rfl, rfl, rfl⟩ := ih h4
      exact ⟨rfl, rfl, rfl⟩

/-! ### Annex B -/

/-- C85: if a stream is cut off anywhere, what is parsed from the part `a` that is there is the same as what is parsed from the whole
stream up to the last NAL unit of `a`.  Only a NAL unit that does not have five bytes after it in `a` can be missing or another one
(a start code of four bytes and the first byte after it; with less the end of the NAL unit is not seen). -/
theorem C85_annexB {nd : Bool} {opts : ParsingOptions} {a b : List UInt8} (hl : (a ++ b).length < 2 ^ 61) {σ : Store} {c : Nat}
    {bs bt : Bitstream} {σ' τ' : Store} {c' d' : Nat} (hs : parseBitstream nd opts (a ++ b) σ c = .val (bs, σ', c'))
    (ht : parseBitstream nd opts a σ c = .val (bt, τ', d')) :
    ∃ common more last, bs.nal_units = common ++ more ∧ bt.nal_units = common ++ last ∧
      (∀ u ∈ more, a.length < u.offset + u.length + 5) ∧
      last.length ≤ 1 ∧ ∀ u ∈ last, u.offset + u.length = a.length := by
  have hl' := hl
  rw [List.length_append] at hl'
  obtain ⟨us, la, lb, e1, e2, h⟩ := units_cutOff a b
  have hs' : InOrder (fun b => parseNalUnit nd opts b 0 b.length) (unitsOf (a ++ b)) σ c bs.nal_units σ' c' :=
    ((C18_in_order nd opts _ hl σ c _ _ _).mp hs).2
  have ht' : InOrder (fun b => parseNalUnit nd opts b 0 b.length) (unitsOf a) σ c bt.nal_units τ' d' :=
    ((C18_in_order nd opts _ (by omega) σ c _ _ _).mp ht).2
  rw [e2, inOrder_append] at hs'
  rw [e1, inOrder_append] at ht'
  obtain ⟨n1, n2, σ1, c1, e3, h1, h2⟩ := hs'
  obtain ⟨m1, m2, σ2, c2, e4, h3, h4⟩ := ht'
  obtain ⟨rfl, rfl, rfl⟩ := inOrder_unique h1 h3
  refine ⟨n1, n2, m2, e3, e4, fun u hu => ?_, ?_, fun u hu => ?_⟩
  · obtain ⟨off, bytes, h5, _, _, _, _, _, _, rfl⟩ := inOrder_mem h2 u hu
    dsimp only
    rcases h with ⟨_, h⟩ | ⟨p, m, lb', _, rfl, _, h6, h7, h8, _⟩
    · have := h _ h5
      dsimp only at this
      omega
    · rcases List.mem_cons.mp h5 with h5 | h5
      · injection h5 with e5 e6
        rw [e5, e6, List.length_take, List.length_drop]
        omega
      · have := h8 _ h5
        dsimp only at this
        omega
  · have := inOrder_count h4
    rcases h with ⟨rfl, _⟩ | ⟨p, m, lb', rfl, _⟩
    · rw [List.length_nil] at this; omega
    · exact this
  · obtain ⟨off, bytes, h5, _, _, _, _, _, _, rfl⟩ := inOrder_mem h4 u hu
    dsimp only
    rcases h with ⟨rfl, _⟩ | ⟨p, m, lb', rfl, _, h6, _⟩
    · cases h5
    · rw [List.mem_singleton] at h5
      injection h5 with e5 e6
      rw [e5, e6, List.length_drop]
      omega

/-- The NAL unit cut off and the whole one, if a slice header was found in the shorter of the two. -/
theorem slice_longer {nd : Bool} {opts : ParsingOptions} {l : List UInt8} (hl : l.length < 2 ^ 32) {m k : Nat} (hmk : m ≤ k) (hk : k ≤ l.length)
    {σ : Store} (hσ : σ.Valid) {c : Nat} {n : NalUnit} {σ' : Store} {c' : Nat}
    (he : parseNalUnit nd opts (l.take m) 0 (l.take m).length σ c = .val (some n, σ', c'))
    (hs : n.nal_unit_payload.slice_layer_without_partitioning_rbsp.isSome) :
    ∃ ck, parseNalUnit nd opts (l.take k) 0 (l.take k).length σ c = .val (some { n with checksum := ck }, σ, c) := by
  have h1 := parseNalUnit_local (nd := nd) (data := l) (off := 0) (len := m) (by omega) (by unfold maxVector; omega) opts σ c
  have h2 := parseNalUnit_local (nd := nd) (data := l) (off := 0) (len := k) (by omega) (by unfold maxVector; omega) opts σ c
  rw [List.drop_zero] at h1 h2
  rw [← h1] at he
  rw [← h2]
  obtain ⟨ck, h3, _, _⟩ := C78_longer hl hmk (by omega) hσ he hs
  exact ⟨ck, h3⟩

theorem inOrder_one {parse : List UInt8 → Store → Nat → Res (Option NalUnit × Store × Nat)} {off : Nat} {bytes : List UInt8}
    {rest : List (Nat × List UInt8)} {σ σ' : Store} {c c' : Nat} {ns : List NalUnit}
    (h : InOrder parse ((off, bytes) :: rest) σ c ns σ' c') :
    (∃ c1, parse bytes σ c = .val (none, σ, c1) ∧ InOrder parse rest σ c1 ns σ' c') ∨
    ∃ n σ1 c1 ms, parse bytes σ c = .val (some n, σ1, c1) ∧ ns = { n with offset := off, length := bytes.length } :: ms ∧
      InOrder parse rest σ1 c1 ms σ' c' := by
  cases h with
  | skip h1 h2 => exact .inl ⟨_, h1, h2⟩
  | unit h1 h2 => exact .inr ⟨_, _, _, _, h1, rfl, h2⟩

/-- C85: every slice header found in a stream that is cut off is one that the whole stream has there, provided the cut is not within a
start code. -/
theorem C85_slices {nd : Bool} {opts : ParsingOptions} {a b : List UInt8} (hl : (a ++ b).length < 2 ^ 32)
    (hcode : ∀ q, isStart (a ++ b) q → ¬ isStart a q → a.length ≤ startOffset (a ++ b) q) {σ : Store} (hσ : σ.Valid) {c : Nat}
    {bs bt : Bitstream} {σ' τ' : Store} {c' d' : Nat} (hs : parseBitstream nd opts (a ++ b) σ c = .val (bs, σ', c'))
    (ht : parseBitstream nd opts a σ c = .val (bt, τ', d')) {u : NalUnit} (hu : u ∈ bt.nal_units)
    (hh : u.nal_unit_payload.slice_layer_without_partitioning_rbsp.isSome) :
    ∃ len ck, { u with length := len, checksum := ck } ∈ bs.nal_units := by
  have hl' := hl
  rw [List.length_append] at hl'
  obtain ⟨us, la, lb, e1, e2, h⟩ := units_cutOff a b
  have hs' : InOrder (fun b => parseNalUnit nd opts b 0 b.length) (unitsOf (a ++ b)) σ c bs.nal_units σ' c' :=
    ((C18_in_order nd opts _ (by omega) σ c _ _ _).mp hs).2
  have ht' : InOrder (fun b => parseNalUnit nd opts b 0 b.length) (unitsOf a) σ c bt.nal_units τ' d' :=
    ((C18_in_order nd opts _ (by omega) σ c _ _ _).mp ht).2
  have hshort : ∀ x ∈ us, x.2.length < 2 ^ 61 := by
    intro x hx
    exact slice_lt (data := a) (by omega) (entries a (starts a)) x (by show x ∈ unitsOf a; rw [e1]; simp [hx])
  rw [e2, inOrder_append] at hs'
  rw [e1, inOrder_append] at ht'
  obtain ⟨n1, n2, σ1, c1, e3, h1, h2⟩ := hs'
  obtain ⟨m1, m2, σ2, c2, e4, h3, h4⟩ := ht'
  have hσ1 := inOrder_valid hshort h1 hσ
  obtain ⟨rfl, rfl, rfl⟩ := inOrder_unique h1 h3
  rw [e4, List.mem_append] at hu
  rcases hu with hu | hu
  · exact ⟨u.length, u.checksum, by rw [e3, List.mem_append]; exact .inl hu⟩
  · rcases h with ⟨rfl, _⟩ | ⟨p, m, lb', rfl, rfl, h5, h6, _, _, h7⟩
    · cases h4; cases hu
    · have h8 := h7 hcode
      have hd : a.drop p = ((a ++ b).drop p).take (a.length - p) := by
        rw [List.drop_append_of_le_length (by omega), List.take_left' (by rw [List.length_drop])]
      rcases inOrder_one h4 with ⟨_, _, h9⟩ | ⟨n, _, _, ms, h9, rfl, h10⟩
      · cases h9; cases hu
      · cases h10
        rw [List.mem_singleton] at hu
        subst hu
        dsimp only at h9 hh
        rw [hd] at h9
        obtain ⟨ck, h11⟩ := slice_longer (by rw [List.length_drop]; omega) (by omega : a.length - p ≤ m) (by rw [List.length_drop]; omega) hσ1 h9 hh
        rcases inOrder_one h2 with ⟨_, h12, _⟩ | ⟨n', _, _, ms', h12, rfl, _⟩
        · rw [h11] at h12
          injection h12 with h12; injection h12 with h12; cases h12
        · rw [h11] at h12
          injection h12 with h12
          injection h12 with h12
          injection h12 with h12
          subst h12
          exact ⟨(List.take m (List.drop p (a ++ b))).length, ck, by rw [e3]; exact List.mem_append_right _ (List.mem_cons_self ..)⟩

theorem inOrder_offsets {parse : List UInt8 → Store → Nat → Res (Option NalUnit × Store × Nat)} {us : List (Nat × List UInt8)} {σ σ' : Store}
    {c c' : Nat} {ns : List NalUnit} (h : InOrder parse us σ c ns σ' c') : (ns.map (·.offset)).Sublist (us.map (·.1)) := by
  induction h with
  | nil => exact .slnil
  | skip _ _ ih => exact .cons _ ih
  | unit _ _ ih => exact .cons_cons _ ih

theorem unitsOf_sorted (l : List UInt8) : ((unitsOf l).map (·.1)).Pairwise (· < ·) := by
  unfold unitsOf
  rw [List.map_map]
  show ((entries l (starts l)).map NaluIndex.payload_start_offset).Pairwise (· < ·)
  rw [entries_map]
  exact List.Pairwise.map _ (by intro a b h; show _ < _; omega) (starts_sorted l)

theorem same_offset : ∀ {ns : List NalUnit}, (ns.map (·.offset)).Pairwise (· < ·) → ∀ {u v : NalUnit}, u ∈ ns → v ∈ ns → u.offset = v.offset → u = v
  | [], _, _, _, hu, _, _ => by cases hu
  | n :: ns, h, u, v, hu, hv, e => by
    rw [List.map_cons, List.pairwise_cons] at h
    rcases List.mem_cons.mp hu with hu1 | hu1 <;> rcases List.mem_cons.mp hv with hv1 | hv1
    · rw [hu1, hv1]
    · have := h.1 _ (List.mem_map_of_mem (f := (·.offset)) hv1); rw [← hu1] at this; omega
    · have := h.1 _ (List.mem_map_of_mem (f := (·.offset)) hu1); rw [← hv1] at this; omega
    · exact same_offset h.2 hu1 hv1 e

/-- C85: wherever the cut is, a slice header found in the cut stream and one found in the whole stream at the same place are the same. -/
theorem C85_consistent {nd : Bool} {opts : ParsingOptions} {a b : List UInt8} (hl : (a ++ b).length < 2 ^ 32) {σ : Store} (hσ : σ.Valid) {c : Nat}
    {bs bt : Bitstream} {σ' τ' : Store} {c' d' : Nat} (hs : parseBitstream nd opts (a ++ b) σ c = .val (bs, σ', c'))
    (ht : parseBitstream nd opts a σ c = .val (bt, τ', d')) {u v : NalUnit} (hu : u ∈ bt.nal_units) (hv : v ∈ bs.nal_units)
    (huv : u.offset = v.offset) (hhu : u.nal_unit_payload.slice_layer_without_partitioning_rbsp.isSome)
    (hhv : v.nal_unit_payload.slice_layer_without_partitioning_rbsp.isSome) :
    v = { u with length := v.length, checksum := v.checksum } := by
  have hl' := hl
  rw [List.length_append] at hl'
  obtain ⟨us, la, lb, e1, e2, h⟩ := units_cutOff a b
  have hs' : InOrder (fun b => parseNalUnit nd opts b 0 b.length) (unitsOf (a ++ b)) σ c bs.nal_units σ' c' :=
    ((C18_in_order nd opts _ (by omega) σ c _ _ _).mp hs).2
  have ht' : InOrder (fun b => parseNalUnit nd opts b 0 b.length) (unitsOf a) σ c bt.nal_units τ' d' :=
    ((C18_in_order nd opts _ (by omega) σ c _ _ _).mp ht).2
  have hshort : ∀ x ∈ us, x.2.length < 2 ^ 61 := by
    intro x hx
    exact slice_lt (data := a) (by omega) (entries a (starts a)) x (by show x ∈ unitsOf a; rw [e1]; simp [hx])
  have hso := (unitsOf_sorted (a ++ b)).sublist (inOrder_offsets hs')
  have hto := (unitsOf_sorted a).sublist (inOrder_offsets ht')
  rw [e2, inOrder_append] at hs'
  rw [e1, inOrder_append] at ht'
  obtain ⟨n1, n2, σ1, c1, e3, h1, h2⟩ := hs'
  obtain ⟨m1, m2, σ2, c2, e4, h3, h4⟩ := ht'
  have hσ1 := inOrder_valid hshort h1 hσ
  obtain ⟨rfl, rfl, rfl⟩ := inOrder_unique h1 h3
  have hu' := hu
  have hv' := hv
  rw [e4, List.mem_append] at hu
  rw [e3, List.mem_append] at hv
  rcases hu with hu | hu
  · obtain rfl := same_offset hso (by rw [e3, List.mem_append]; exact .inl hu) hv' huv
    rfl
  · rcases hv with hv | hv
    · obtain rfl := same_offset hto hu' (by rw [e4, List.mem_append]; exact .inl hv) huv
      rfl
    · rcases h with ⟨rfl, _⟩ | ⟨p, m, lb', rfl, rfl, h5, h6, _, h7, _⟩
      · cases h4; cases hu
      · have hd : a.drop p = ((a ++ b).drop p).take (a.length - p) := by
          rw [List.drop_append_of_le_length (by omega), List.take_left' (by rw [List.length_drop])]
        have hlate : ∀ {σ σ' : Store} {c c' : Nat} {ns : List NalUnit}, InOrder (fun b => parseNalUnit nd opts b 0 b.length) lb' σ c ns σ' c' →
            ∀ w ∈ ns, w.offset ≠ p := by
          intro _ _ _ _ _ hi w hw
          obtain ⟨off, bytes, h8, _, _, _, _, _, _, rfl⟩ := inOrder_mem hi w hw
          have := h7 _ h8
          dsimp only at this ⊢
          omega
        rcases inOrder_one h4 with ⟨_, _, h9⟩ | ⟨n, _, _, ms, h9, rfl, h10⟩
        · cases h9; cases hu
        · cases h10
          rw [List.mem_singleton] at hu
          subst hu
          dsimp only at h9 hhu huv
          rw [hd] at h9
          rcases inOrder_one h2 with ⟨_, _, h12⟩ | ⟨n', _, _, ms', h12, rfl, h13⟩
          · exact absurd huv.symm (hlate h12 v hv)
          · rcases List.mem_cons.mp hv with rfl | hv
            · dsimp only at h12 hhv
              rcases Nat.le_total (a.length - p) m with hle | hle
              · obtain ⟨ck, h11⟩ := slice_longer (by rw [List.length_drop]; omega) hle (by rw [List.length_drop]; omega) hσ1 h9 hhu
                rw [h11] at h12
                injection h12 with h12
                injection h12 with h12
                injection h12 with h12
                subst h12
                rfl
              · obtain ⟨ck, h11⟩ := slice_longer (by rw [List.length_drop]; omega) hle (by rw [List.length_drop, List.length_append]; omega) hσ1 h12 hhv
                rw [h11] at h9
                injection h9 with h9
                injection h9 with h9
                injection h9 with h9
                subst h9
                rfl
            · exact absurd huv.symm (hlate h13 v hv)

/-! ### Streams with sizes -/

theorem lengthUnits_beginning {a b : List UInt8} {k pos : Nat} {us : List (Nat × List UInt8)} (h : LengthUnits a k pos us) :
    ∀ {ws : List (Nat × List UInt8)}, LengthUnits (a ++ b) k pos ws → us <+: ws := by
  induction h with
  | stop _ => exact fun _ => List.nil_prefix
  | @next pos size us h1 h2 h3 _ ih =>
    intro ws hw
    have e1 : ((a ++ b).drop pos).take k = (a.drop pos).take k := by
      rw [List.drop_append_of_le_length (by omega), List.take_append_of_le_length (by rw [List.length_drop]; omega)]
    have e2 : ((a ++ b).drop (pos + k)).take size = (a.drop (pos + k)).take size := by
      rw [List.drop_append_of_le_length (by omega), List.take_append_of_le_length (by rw [List.length_drop]; omega)]
    cases hw with
    | stop hs => exact absurd (by rw [List.length_append]; omega) (hs size (by rw [e1]; exact h1) h2)
    | @next _ size' ws' g1 g2 g3 g4 =>
      rw [e1, h1] at g1
      subst g1
      rw [e2]
      exact (List.prefix_cons_inj _).mpr (ih g4)

/-- C85: what is parsed from the beginning of a stream with sizes is the beginning of what is parsed from the whole. -/
theorem C85_length {nd : Bool} {opts : ParsingOptions} {a b : List UInt8} (hl : (a ++ b).length < 2 ^ 61) {k : Nat} (hk : 0 < k) (hk7 : k ≤ 7)
    {σ : Store} {c : Nat} {bs bt : Bitstream} {σ' τ' : Store} {c' d' : Nat}
    (hs : parseBitstreamNALULength nd opts (a ++ b) k σ c = .val (bs, σ', c'))
    (ht : parseBitstreamNALULength nd opts a k σ c = .val (bt, τ', d')) : bt.nal_units <+: bs.nal_units := by
  have hl' := hl
  rw [List.length_append] at hl'
  obtain ⟨ws, hw, hw'⟩ := C17_in_order_upto7_partial nd opts (a ++ b) hl hk hk7
  obtain ⟨us, hu, hu'⟩ := C17_in_order_upto7_partial nd opts a (by omega) hk hk7
  obtain ⟨rest, rfl⟩ := lengthUnits_beginning hu hw
  obtain ⟨_, ns, h1, e1⟩ := (hw' σ c _ _ _).mp hs
  obtain ⟨_, ms, h2, e2⟩ := (hu' σ c _ _ _).mp ht
  obtain ⟨n1, n2, σ1, c1, rfl, h3, _⟩ := inOrder_append.mp h1
  obtain ⟨rfl, _, _⟩ := inOrder_unique h2 h3
  rw [e1, e2, List.map_append]
  exact List.prefix_append _ _

/-- C85: a stream with sizes that is cut off within a NAL unit `u` (or its size) is parsed as the NAL units before it. -/
theorem C85_framed {nd : Bool} {opts : ParsingOptions} {k : Nat} (hk : 0 < k) (hk7 : k ≤ 7) {us : List (List UInt8)} {u part rest : List UInt8}
    (hu : ∀ x ∈ us ++ [u], x ≠ [] ∧ x.length < 256 ^ k) (hp : part ++ rest = be k u.length ++ u) (hr : rest ≠ [])
    (hl : (framed k us ++ part).length < 2 ^ 61) (σ : Store) (c : Nat) (bs : Bitstream) (σ' : Store) (c' : Nat) :
    parseBitstreamNALULength nd opts (framed k us ++ part) k σ c = .val (bs, σ', c') ↔
      parseBitstreamNALULength nd opts (framed k us) k σ c = .val (bs, σ', c') := by
  have hl' := hl
  rw [List.length_append] at hl'
  have hus : ∀ x ∈ us, x ≠ [] ∧ x.length < 256 ^ k := fun x hx => hu x (by simp [hx])
  obtain ⟨hne, hul⟩ := hu u (by simp)
  obtain ⟨ws, hw, hw'⟩ := C17_in_order_upto7_partial nd opts (framed k us ++ part) hl hk hk7
  have hlen : part.length + rest.length = k + u.length := by
    rw [← List.length_append, hp, List.length_append, be_length]
  have hr0 : 0 < rest.length := List.length_pos_iff.mpr hr
  have hstop : LengthUnits (framed k us ++ part) k (0 + (framed k us).length) [] := by
    refine .stop fun size h1 h2 h3 => ?_
    rw [Nat.zero_add, List.drop_left] at h1
    rw [List.length_append, Nat.zero_add] at h3
    have h4 : part.take k = be k u.length := by
      have h5 := congrArg (List.take k) hp
      rw [List.take_append_of_le_length (by omega), List.take_left' (be_length _ _)] at h5
      exact h5
    rw [h4, ofBE_be _ _ hul] at h1
    omega
  have e := LengthUnits.unique hw (lengthUnits_join _ k part [] us 0 hus rfl (by omega) hstop)
  rw [List.append_nil] at e
  rw [hw', e, C17_framed_partial nd opts us hk hus (by omega)]

/-! ### What a cut can do -/

/-- An SPS with frame numbers of 10 bits and picture order counts of 16 bits, and a PPS. -/
def cutSps : SpsSyn :=
  { exStapSps with tail := { log2_max_frame_num_minus4 := 6, log2_max_pic_order_cnt_lsb_minus4 := 12, max_num_ref_frames := 1,
                             pic_width_in_mbs_minus1 := 119, pic_height_in_map_units_minus1 := 67, frame_mbs_only_flag := 1,
                             direct_8x8_inference_flag := 1 } }
def cutPps : PpsSyn := { head := {}, ext := none }
def cutSets : List (Bool × List UInt8) :=
  [(true, escapeNal (exRbsp (exHdr 3 7) (encSps cutSps) 0)), (true, escapeNal (exRbsp (exHdr 3 8) (encPps cutPps) 0))]

/-- C85: the condition of `C85_slices` is needed.  In this stream a slice of two bytes is followed by an access unit delimiter.  The
whole stream has no slice header.  Cut after the bytes 00 00 01 of the start code, which then count as part of the slice, it has one. -/
theorem C85_start_code (nd : Bool) :
    (∃ r, parseBitstream nd {} (annexB cutSets ++ [0, 0, 1, 0x01, 0xb8, 0, 0, 1] ++ [0x09, 0xf0]) {} 0 = .val r ∧
      r.1.nal_units.map (fun n => (n.nal_unit_header.nal_unit_type, n.nal_unit_payload.slice_layer_without_partitioning_rbsp.isSome)) =
        [(7, false), (8, false), (1, false), (9, false)]) ∧
    ∃ r, parseBitstream nd {} (annexB cutSets ++ [0, 0, 1, 0x01, 0xb8, 0, 0, 1]) {} 0 = .val r ∧
      r.1.nal_units.map (fun n => (n.nal_unit_header.nal_unit_type, n.nal_unit_payload.slice_layer_without_partitioning_rbsp.isSome)) =
        [(7, false), (8, false), (1, true)] := by
  cases nd <;> exact ⟨exists_dec (by decide +kernel), exists_dec (by decide +kernel)⟩

/-- C85: a PPS that is cut off can be stored as another PPS.  The PPS of this stream has transform_8x8_mode_flag = 1; with its last byte
missing, one with transform_8x8_mode_flag = 0 is returned and stored. -/
theorem C85_pps (nd : Bool) :
    (∃ r, parseBitstream nd {} ([0, 0, 1, 0x68, 0xee, 0x38] ++ [0xb0]) {} 0 = .val r ∧
      (r.2.1.pps 0).map (·.transform_8x8_mode_flag) = some 1) ∧
    ∃ r, parseBitstream nd {} [0, 0, 1, 0x68, 0xee, 0x38] {} 0 = .val r ∧
      (r.2.1.pps 0).map (·.transform_8x8_mode_flag) = some 0 := by
  cases nd <;> exact ⟨exists_dec (by decide +kernel), exists_dec (by decide +kernel)⟩

/-! ### Examples -/

/-- SPS, PPS and two slices, cut within the second slice and after its slice header: four NAL units, two with slice headers. -/
def cutStream : List UInt8 :=
  annexB (cutSets ++ [(false, [0x01, 0xb8, 0x10, 0x10, 0x11, 0x80, 0x80, 0x80]), (true, [0x01, 0xb8, 0x20, 0x10, 0x11, 0x80, 0x81, 0x80])])

example (nd : Bool) : (∃ r, parseBitstream nd { add_checksum := true } (cutStream.take (cutStream.length - 2) ++ cutStream.drop (cutStream.length - 2)) {} 0 = .val r ∧
      r.1.nal_units.map (fun n => (n.offset, n.length, (n.nal_unit_payload.slice_layer_without_partitioning_rbsp.map (·.slice_header.isSome)))) =
        [(4, 16, none), (24, 4, none), (31, 8, some true), (43, 8, some true)]) ∧
    (∃ r, parseBitstream nd { add_checksum := true } (cutStream.take (cutStream.length - 2)) {} 0 = .val r ∧
      r.1.nal_units.map (fun n => (n.offset, n.length, (n.nal_unit_payload.slice_layer_without_partitioning_rbsp.map (·.slice_header.isSome)))) =
        [(4, 16, none), (24, 4, none), (31, 8, some true), (43, 6, some true)]) := by
  cases nd <;> exact ⟨exists_dec (by decide +kernel), exists_dec (by decide +kernel)⟩

/-- The condition of `C85_slices` for this cut. -/
example : ∀ q ∈ starts cutStream, ¬ isStart (cutStream.take (cutStream.length - 2)) q → cutStream.length - 2 ≤ startOffset cutStream q := by
  decide +kernel

/-- A stream with sizes cut within its second NAL unit. -/
example (nd : Bool) : (∃ r, parseBitstreamNALULength nd {} (framed 2 [[0x09, 0xf0], [0x68, 0xee, 0x38, 0xb0]]) 2 {} 0 = .val r ∧
      r.1.nal_units.map (·.nal_unit_header.nal_unit_type) = [9, 8]) ∧
    (∃ r, parseBitstreamNALULength nd {} (framed 2 [[0x09, 0xf0]] ++ [0, 4, 0x68]) 2 {} 0 = .val r ∧
      r.1.nal_units.map (·.nal_unit_header.nal_unit_type) = [9]) ∧
    [0, 4, 0x68] ++ [0xee, 0x38, 0xb0] = be 2 [0x68, 0xee, 0x38, 0xb0].length ++ [0x68, 0xee, 0x38, 0xb0] := by
  cases nd <;> exact ⟨exists_dec (by decide +kernel), exists_dec (by decide +kernel), by decide⟩

end H264.Props
