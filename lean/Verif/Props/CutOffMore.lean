import Verif.Props.CutOff
import Verif.Props.FragmentSps
import Verif.Props.BeginningScalable

/-
SPSs and scalable slices in streams that are cut off: C85.
-/

namespace H264.Props
open H264.Spec Prog

/-- If payloads with the property `P` are found again in every longer part of their NAL unit, then they are found again in the whole
stream, provided the cut is not within a start code. -/
theorem found_again {nd : Bool} {opts : ParsingOptions} (P : Payload → Prop)
    (hP : ∀ {data : List UInt8}, data.length < 2 ^ 32 → ∀ {off m k : Nat}, m ≤ k → off + k ≤ data.length → ∀ {σ : Store}, σ.Valid →
      ∀ {c : Nat} {n : NalUnit} {σ' : Store} {c' : Nat}, parseNalUnit nd opts data off m σ c = .val (some n, σ', c') →
      P n.nal_unit_payload → ∃ n2 σ2 c2, parseNalUnit nd opts data off k σ c = .val (some n2, σ2, c2) ∧
        n2.nal_unit_header = n.nal_unit_header ∧ n2.nal_unit_payload = n.nal_unit_payload)
    {a b : List UInt8} (hl : (a ++ b).length < 2 ^ 32)
    (hcode : ∀ q, isStart (a ++ b) q → ¬ isStart a q → a.length ≤ startOffset (a ++ b) q) {σ : Store} (hσ : σ.Valid) {c : Nat}
    {bs bt : Bitstream} {σ' τ' : Store} {c' d' : Nat} (hs : parseBitstream nd opts (a ++ b) σ c = .val (bs, σ', c'))
    (ht : parseBitstream nd opts a σ c = .val (bt, τ', d')) {u : NalUnit} (hu : u ∈ bt.nal_units) (hh : P u.nal_unit_payload) :
    ∃ v ∈ bs.nal_units, v.offset = u.offset ∧ v.nal_unit_header = u.nal_unit_header ∧ v.nal_unit_payload = u.nal_unit_payload := by
  have hl' := hl
  rw [List.length_append] at hl'
  obtain ⟨us, la, lb, e1, e2, h⟩ := units_cutOff a b
  have hs' : InOrder (fun b => parseNalUnit nd opts b 0 b.length) (unitsOf (a ++ b)) σ c bs.nal_units σ' c' :=
    ((C18_in_order nd opts _ (by omega) σ c _ _ _).mp hs).2
  have ht' : InOrder (fun b => parseNalUnit nd opts b 0 b.length) (unitsOf a) σ c bt.nal_units τ' d' :=
    ((C18_in_order nd opts _ (by omega) σ c _ _ _).mp ht).2
  have hshort : ∀ x ∈ us, x.2.length < 2 ^ 61 := by
    intro x hx
    exact slice_lt (data := a) (by omega) (entries a (starts a)) x (by show x ∈ unitsOf a; rw [e1]; simp [hx])
  rw [e2, inOrder_append] at hs'
  rw [e1, inOrder_append] at ht'
  obtain ⟨n1, n2, σ1, c1, e3, h1, h2⟩ := hs'
  obtain ⟨m1, m2, σ2, c2, e4, h3, h4⟩ := ht'
  have hσ1 := inOrder_valid hshort h1 hσ
  obtain ⟨rfl, rfl, rfl⟩ := inOrder_unique h1 h3
  rw [e4, List.mem_append] at hu
  rcases hu with hu | hu
  · exact ⟨u, by rw [e3, List.mem_append]; exact .inl hu, rfl, rfl, rfl⟩
  · rcases h with ⟨rfl, _⟩ | ⟨p, m, lb', rfl, rfl, h5, h6, _, _, h7⟩
    · cases h4; cases hu
    · have h8 := h7 hcode
      have hd : a.drop p = ((a ++ b).drop p).take (a.length - p) := by
        rw [List.drop_append_of_le_length (by omega), List.take_left' (by rw [List.length_drop])]
      rcases inOrder_one h4 with ⟨_, _, h9⟩ | ⟨n, _, _, ms, h9, rfl, h10⟩
      · cases h9; cases hu
      · cases h10
        rw [List.mem_singleton] at hu
        subst hu
        dsimp only at h9 hh
        rw [hd] at h9
        have hld : ((a ++ b).drop p).length < 2 ^ 32 := by rw [List.length_drop]; omega
        have hlm : m ≤ ((a ++ b).drop p).length := by rw [List.length_drop]; omega
        have g1 := parseNalUnit_local (nd := nd) (data := (a ++ b).drop p) (off := 0) (len := a.length - p) (by omega)
          (by unfold maxVector; omega) opts σ1 c1
        have g2 := parseNalUnit_local (nd := nd) (data := (a ++ b).drop p) (off := 0) (len := m) (by omega)
          (by unfold maxVector; omega) opts σ1 c1
        rw [List.drop_zero] at g1 g2
        rw [← g1] at h9
        obtain ⟨n3, σ3, c3, h11, k2, k3⟩ := hP hld (by omega : a.length - p ≤ m) (by omega) hσ1 h9 hh
        rw [g2] at h11
        rcases inOrder_one h2 with ⟨_, h12, _⟩ | ⟨n', _, _, ms', h12, rfl, _⟩
        · rw [h11] at h12
          injection h12 with h12; injection h12 with h12; cases h12
        · rw [h11] at h12
          injection h12 with h12
          injection h12 with h12
          injection h12 with h12
          subst h12
          refine ⟨{ n3 with offset := p, length := (((a ++ b).drop p).take m).length }, ?_, rfl, k2, k3⟩
          rw [e3]
          exact List.mem_append_right _ (List.mem_cons_self ..)

/-- C85: every SPS without scaling matrix found in a stream that is cut off is one that the whole stream has there, provided the cut is
not within a start code. -/
theorem C85_sps {nd : Bool} {opts : ParsingOptions} {a b : List UInt8} (hl : (a ++ b).length < 2 ^ 32)
    (hcode : ∀ q, isStart (a ++ b) q → ¬ isStart a q → a.length ≤ startOffset (a ++ b) q) {σ : Store} (hσ : σ.Valid) {c : Nat}
    {bs bt : Bitstream} {σ' τ' : Store} {c' d' : Nat} (hs : parseBitstream nd opts (a ++ b) σ c = .val (bs, σ', c'))
    (ht : parseBitstream nd opts a σ c = .val (bt, τ', d')) {u : NalUnit} (hu : u ∈ bt.nal_units) {st : SpsData}
    (hh : u.nal_unit_payload.sps = some st) (hf : st.seq_scaling_matrix_present_flag = 0) :
    ∃ v ∈ bs.nal_units, v.offset = u.offset ∧ v.nal_unit_header = u.nal_unit_header ∧ v.nal_unit_payload = u.nal_unit_payload := by
  refine found_again (fun p => ∃ st, p.sps = some st ∧ st.seq_scaling_matrix_present_flag = 0) ?_ hl hcode hσ hs ht hu ⟨st, hh, hf⟩
  rintro data hd off m k hmk hk σ _ c n σ' c' he ⟨st, h1, h2⟩
  obtain ⟨n2, h3, h4, h5, _⟩ := C91_longer hd hmk hk he h1 h2
  exact ⟨n2, _, _, h3, h4, h5⟩

/-- C85: every scalable slice header found in a stream that is cut off is one that the whole stream has there, provided the cut is not
within a start code. -/
theorem C85_scalable {nd : Bool} {opts : ParsingOptions} {a b : List UInt8} (hl : (a ++ b).length < 2 ^ 32)
    (hcode : ∀ q, isStart (a ++ b) q → ¬ isStart a q → a.length ≤ startOffset (a ++ b) q) {σ : Store} (hσ : σ.Valid) {c : Nat}
    {bs bt : Bitstream} {σ' τ' : Store} {c' d' : Nat} (hs : parseBitstream nd opts (a ++ b) σ c = .val (bs, σ', c'))
    (ht : parseBitstream nd opts a σ c = .val (bt, τ', d')) {u : NalUnit} (hu : u ∈ bt.nal_units)
    (hh : (u.nal_unit_payload.slice_layer_extension_rbsp.bind (·.slice_header_in_scalable_extension)).isSome) :
    ∃ v ∈ bs.nal_units, v.offset = u.offset ∧ v.nal_unit_header = u.nal_unit_header ∧ v.nal_unit_payload = u.nal_unit_payload := by
  refine found_again (fun p => (p.slice_layer_extension_rbsp.bind (·.slice_header_in_scalable_extension)).isSome) ?_ hl hcode hσ hs ht hu hh
  intro data hd off m k hmk hk σ hσ c n σ' c' he h1
  obtain ⟨ck, h3, _, _⟩ := C78_scalable_longer hd hmk hk hσ he h1
  exact ⟨_, _, _, h3, rfl, rfl⟩

/-- A stream with an SPS, cut off after all fields of the SPS and before them. -/
example (nd : Bool) : ∃ r, (do
    let x ← parseBitstream nd {} [0, 0, 1, 0x67, 66, 0, 10, 0xf8, 0x41, 0xa2, 0x80, 0, 0, 1, 0x09, 0xf0] {} 0
    let y ← parseBitstream nd {} [0, 0, 1, 0x67, 66, 0, 10, 0xf8, 0x41, 0xa2] {} 0
    let z ← parseBitstream nd {} [0, 0, 1, 0x67, 66, 0, 10, 0xf8, 0x41] {} 0
    pure [x.1, y.1, z.1]) = .val r ∧
    r.map (fun b => b.nal_units.map fun n => (n.offset, n.nal_unit_payload.sps.map (·.seq_scaling_matrix_present_flag))) =
      [[(3, some 0), (14, none)], [(3, some 0)], [(3, none)]] := by
  cases nd <;> exact exists_dec (by decide +kernel)

/-- The scalable slice of the unit test after its parameter sets, whole and cut off after the fields of its header. -/
example (nd : Bool) : ∃ r, (do
    let x ← parseBitstream nd {} (exSvcStream ++ [0, 0, 1] ++ nalHeaderByte 0 3 20 :: exSvcSlice) {} 0
    let y ← parseBitstream nd {} (exSvcStream ++ [0, 0, 1] ++ nalHeaderByte 0 3 20 :: exSvcSlice.take 6) {} 0
    pure [x.1, y.1]) = .val r ∧
    r.map (fun b => b.nal_units.map fun n =>
        (n.nal_unit_payload.slice_layer_extension_rbsp.bind (·.slice_header_in_scalable_extension)).isSome) =
      [[false, false, false, false, true], [false, false, false, false, true]] := by
  cases nd <;> exact exists_dec (by decide +kernel)

end H264.Props
