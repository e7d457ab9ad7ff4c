import Verif.Props.StapA
import Verif.Spec.Options

/-
The parsing options change nothing but the checksum: C79.
-/

namespace H264.Props
open H264.Spec Prog

theorem ckOf_isSome {opts : ParsingOptions} {bytes : List UInt8} (h : bytes.length < 2 ^ 61) : (ckOf opts bytes).isSome = opts.add_checksum := by
  have e := ckOf_eq opts h
  unfold unitChecksum at e
  cases ho : opts.add_checksum with
  | false =>
    rw [ho] at e
    simp only [Bool.false_eq_true, if_false, Res.pure_eq, Res.val.injEq, Prod.mk.injEq] at e
    rw [← e.1]; rfl
  | true =>
    rw [ho, if_pos rfl] at e
    cases hg : getNaluChecksum (Buf.start bytes) with
    | bad x => rw [hg] at e; cases e
    | val x =>
      rw [hg, Res.val_bind] at e
      simp only [Res.pure_eq, Res.val.injEq, Prod.mk.injEq] at e
      rw [← e.1]; rfl

theorem ckOf_congr {o o' : ParsingOptions} (h : o.add_checksum = o'.add_checksum) {bytes : List UInt8} (hl : bytes.length < 2 ^ 61) :
    ckOf o bytes = ckOf o' bytes := by
  have e := ckOf_eq o hl
  have e' := ckOf_eq o' hl
  have : unitChecksum o (Buf.start bytes) = unitChecksum o' (Buf.start bytes) := by unfold unitChecksum; rw [h]
  rw [this, e'] at e
  simp only [Res.val.injEq, Prod.mk.injEq, and_true] at e
  exact e.symm

theorem nalUnitL_options {nd : Bool} {o o' : ParsingOptions} {bytes : List UInt8} (hl : bytes.length < 2 ^ 61) {σ σ' : Store} {c c' : Nat}
    {n : Option NalUnit} (h : nalUnitL nd o bytes σ c = .val (n, σ', c')) :
    ∃ n', nalUnitL nd o' bytes σ c = .val (n', σ', c') ∧ SameUnit n n' ∧ (∀ x, n' = some x → ChecksumAsAsked o' x) ∧
      (o.add_checksum = o'.add_checksum → n' = n) := by
  unfold nalUnitL at h ⊢
  revert h
  cases runL nd parseNalHeader ⟨allBits bytes, c⟩ with
  | bad e => intro h; cases h
  | null s =>
    intro h
    simp only [Res.val.injEq, Prod.mk.injEq] at h
    obtain ⟨rfl, rfl, rfl⟩ := h
    exact ⟨none, rfl, rfl, (fun x hx => by cases hx), (fun _ => rfl)⟩
  | ok hd s =>
    dsimp only
    cases runL nd (parsePayload σ hd) s with
    | bad e => intro h; cases h
    | null s =>
      intro h
      simp only [Res.val.injEq, Prod.mk.injEq] at h
      obtain ⟨rfl, rfl, rfl⟩ := h
      exact ⟨none, rfl, rfl, (fun x hx => by cases hx), (fun _ => rfl)⟩
    | ok x s =>
      obtain ⟨p, τ⟩ := x
      dsimp only
      intro h
      simp only [Res.val.injEq, Prod.mk.injEq] at h
      obtain ⟨rfl, rfl, rfl⟩ := h
      refine ⟨_, rfl, rfl, ?_, ?_⟩
      · intro x hx
        simp only [Option.some.injEq] at hx
        subst hx
        exact ckOf_isSome hl
      · intro ho
        rw [ckOf_congr ho hl]

/-- C79: whatever the options, ParseNalUnit returns the same, up to the checksum, and leaves the same parser state and the same
counter.  The checksum is there iff `add_checksum` was set, and the other options make no difference at all. -/
theorem C79_nal_unit {nd : Bool} {o o' : ParsingOptions} {data : List UInt8} (hl : data.length < 2 ^ 61) {off len : Nat}
    (hlen : off + len ≤ data.length) {σ σ' : Store} {c c' : Nat} {n : Option NalUnit}
    (h : parseNalUnit nd o data off len σ c = .val (n, σ', c')) :
    ∃ n', parseNalUnit nd o' data off len σ c = .val (n', σ', c') ∧ SameUnit n n' ∧ (∀ x, n' = some x → ChecksumAsAsked o' x) ∧
      (o.add_checksum = o'.add_checksum → n' = n) := by
  have h1 := strip_length ((data.drop off).take len)
  have h2 : ((data.drop off).take len).length ≤ data.length := by rw [List.length_take, List.length_drop]; omega
  rw [parseNalUnit_eqL hlen hl] at h ⊢
  split at h
  · rename_i hf
    rw [if_pos hf]
    exact nalUnitL_options (by omega) h
  · cases h

/-- The same for lists of NAL units. -/
structure SameUnits (o o' : ParsingOptions) (ns ns' : List NalUnit) : Prop where
  same : ns.map withoutChecksum = ns'.map withoutChecksum
  asked : ∀ x ∈ ns', ChecksumAsAsked o' x
  others : o.add_checksum = o'.add_checksum → ns' = ns

theorem SameUnits.nil {o o' : ParsingOptions} : SameUnits o o' [] [] := ⟨rfl, (fun x hx => by cases hx), (fun _ => rfl)⟩

theorem SameUnits.cons {o o' : ParsingOptions} {a b : NalUnit} {off len : Nat} {ns ns' : List NalUnit} (h : SameUnits o o' ns ns')
    (h1 : SameUnit (some a) (some b)) (h2 : ChecksumAsAsked o' b) (h3 : o.add_checksum = o'.add_checksum → some b = some a) :
    SameUnits o o' ({ a with offset := off, length := len } :: ns) ({ b with offset := off, length := len } :: ns') := by
  refine ⟨?_, ?_, ?_⟩
  · rw [List.map_cons, List.map_cons, h.same]
    congr 1
    simp only [SameUnit, Option.map_some, Option.some.injEq, withoutChecksum, NalUnit.mk.injEq] at h1
    simp only [withoutChecksum, NalUnit.mk.injEq]
    exact ⟨trivial, trivial, h1.2.2.1, trivial, h1.2.2.2.2⟩
  · intro x hx
    rcases List.mem_cons.mp hx with rfl | hx
    · exact h2
    · exact h.asked x hx
  · intro ho
    have := h3 ho
    simp only [Option.some.injEq] at this
    rw [h.others ho, this]

/-- A NAL unit that parsed, in front of the others. -/
def consUnit (off len : Nat) (n : Option NalUnit) (ns : List NalUnit) : List NalUnit :=
  match n with
  | none => ns
  | some a => { a with offset := off, length := len } :: ns

theorem SameUnits.opt {o o' : ParsingOptions} {n n' : Option NalUnit} {off len : Nat} {ns ns' : List NalUnit} (h : SameUnits o o' ns ns')
    (h1 : SameUnit n n') (h2 : ∀ x, n' = some x → ChecksumAsAsked o' x) (h3 : o.add_checksum = o'.add_checksum → n' = n) :
    SameUnits o o' (consUnit off len n ns) (consUnit off len n' ns') := by
  cases n with
  | none =>
    cases n' with
    | none => exact h
    | some b => cases h1
  | some a =>
    cases n' with
    | none => cases h1
    | some b => exact h.cons h1 (h2 b rfl) h3

theorem parseUnits_cons {nd : Bool} {o : ParsingOptions} {data : List UInt8} {ix : NaluIndex} {ixs : List NaluIndex} {σ σ' : Store}
    {c c' : Nat} {ns : List NalUnit} : parseUnits nd o data (ix :: ixs) σ c = .val (ns, σ', c') ↔
      ∃ n τ d ms, parseNalUnit nd o data ix.payload_start_offset ix.payload_size σ c = .val (n, τ, d) ∧
        parseUnits nd o data ixs τ d = .val (ms, σ', c') ∧ ns = consUnit ix.payload_start_offset ix.payload_size n ms := by
  rw [parseUnits]
  cases parseNalUnit nd o data ix.payload_start_offset ix.payload_size σ c with
  | bad e => simp
  | val x =>
    obtain ⟨n, τ, d⟩ := x
    rw [Res.val_bind]
    dsimp only
    cases h2 : parseUnits nd o data ixs τ d with
    | bad e =>
      simp only [Res.bad_bind, false_iff, reduceCtorEq]
      rintro ⟨n1, τ1, d1, ms, e1, e2, _⟩
      simp only [Res.val.injEq, Prod.mk.injEq] at e1
      obtain ⟨rfl, rfl, rfl⟩ := e1
      rw [h2] at e2; cases e2
    | val y =>
      obtain ⟨ms, τ', d'⟩ := y
      rw [Res.val_bind]
      dsimp only
      constructor
      · intro h
        refine ⟨n, τ, d, ms, rfl, ?_, ?_⟩
        · cases n <;> simp only [Res.pure_eq, Res.val.injEq, Prod.mk.injEq] at h <;> rw [h2, h.2.1, h.2.2]
        · cases n <;> simp only [Res.pure_eq, Res.val.injEq, Prod.mk.injEq] at h <;> exact h.1.symm
      · rintro ⟨n1, τ1, d1, ms1, e1, e2, rfl⟩
        simp only [Res.val.injEq, Prod.mk.injEq] at e1
        obtain ⟨rfl, rfl, rfl⟩ := e1
        rw [h2] at e2
        simp only [Res.val.injEq, Prod.mk.injEq] at e2
        obtain ⟨rfl, rfl, rfl⟩ := e2
        cases n <;> rfl

theorem parseUnits_options {nd : Bool} {o o' : ParsingOptions} {data : List UInt8} (hl : data.length < 2 ^ 61) :
    ∀ (ixs : List NaluIndex), (∀ e ∈ ixs, e.payload_start_offset + e.payload_size ≤ data.length) →
    ∀ {σ σ' : Store} {c c' : Nat} {ns : List NalUnit}, parseUnits nd o data ixs σ c = .val (ns, σ', c') →
      ∃ ns', parseUnits nd o' data ixs σ c = .val (ns', σ', c') ∧ SameUnits o o' ns ns'
  | [], _, σ, σ', c, c', ns, h => by
    simp only [parseUnits, Res.val.injEq, Prod.mk.injEq] at h
    obtain ⟨rfl, rfl, rfl⟩ := h
    exact ⟨[], rfl, .nil⟩
  | ix :: ixs, hin, σ, σ', c, c', ns, h => by
    obtain ⟨n, τ, d, ms, h1, h2, rfl⟩ := parseUnits_cons.mp h
    obtain ⟨n', e1, hs, hc, ho⟩ := C79_nal_unit (o' := o') hl (hin ix (by simp)) h1
    obtain ⟨ms', e2, hms⟩ := parseUnits_options hl ixs (fun e he => hin e (by simp [he])) h2
    exact ⟨_, parseUnits_cons.mpr ⟨n', τ, d, ms', e1, e2, rfl⟩, hms.opt hs hc ho⟩

/-- C79 for ParseBitstream with a parser state. -/
theorem C79_stream {nd : Bool} {o o' : ParsingOptions} {data : List UInt8} (hl : data.length < 2 ^ 61) {σ σ' : Store} {c c' : Nat}
    {b : Bitstream} (h : parseBitstream nd o data σ c = .val (b, σ', c')) :
    ∃ b', parseBitstream nd o' data σ c = .val (b', σ', c') ∧ SameUnits o o' b.nal_units b'.nal_units ∧
      b'.parsing_options = b.parsing_options := by
  unfold parseBitstream at h ⊢
  obtain ⟨ixs, hix, hin0, _⟩ := C14_ranges data (by omega)
  have hin : ∀ e ∈ ixs, e.payload_start_offset + e.payload_size ≤ data.length := fun e he => (hin0 e he).2.2
  rw [hix, Res.val_bind] at h ⊢
  cases h1 : parseUnits nd o data ixs σ c with
  | bad e => rw [h1] at h; cases h
  | val x =>
    obtain ⟨ns, τ, d⟩ := x
    rw [h1, Res.val_bind] at h
    simp only [Res.pure_eq, Res.val.injEq, Prod.mk.injEq] at h
    obtain ⟨rfl, rfl, rfl⟩ := h
    obtain ⟨ns', e, hs⟩ := parseUnits_options (o' := o') hl ixs hin h1
    rw [e, Res.val_bind]
    exact ⟨_, rfl, hs, rfl⟩

theorem lengthLoop_options {nd : Bool} {o o' : ParsingOptions} {data : List UInt8} (hl : data.length < 2 ^ 61) {k : Nat} :
    ∀ (f i : Nat) {σ σ' : Store} {c c' : Nat} {ns : List NalUnit}, (k = 0 → i = 0 ∨ data.length ≤ i) →
      parseLengthLoop nd o data k f i σ c = .val (ns, σ', c') →
      ∃ ns', parseLengthLoop nd o' data k f i σ c = .val (ns', σ', c') ∧ SameUnits o o' ns ns' := by
  have hm := lt_maxVector
  have hm' : maxVector = 2 ^ 63 - 1 := rfl
  intro f
  induction f with
  | zero =>
    intro i σ σ' c c' ns _ h
    rw [parseLengthLoop] at h ⊢
    split at h
    · cases h
    · rename_i hi
      simp only [Res.val.injEq, Prod.mk.injEq] at h
      obtain ⟨rfl, rfl, rfl⟩ := h
      exact ⟨[], by rw [if_neg hi], .nil⟩
  | succ f ih =>
    intro i σ σ' c c' ns hk h
    rw [parseLengthLoop] at h ⊢
    split at h
    · rename_i hi
      rw [if_pos hi]
      have hnext : nextNalu data k i = .val none ∨
          ∃ j n, nextNalu data k i = .val (some (j, n)) ∧ (j + n ≤ data.length ∨ maxVector < n) ∧
            (k = 0 → add64 j n = 0 ∨ data.length ≤ add64 j n) := by
        by_cases h0 : k = 0
        · subst h0
          have : i = 0 := by have := hk rfl; omega
          subst this
          refine Or.inr ⟨0, data.length, rfl, Or.inl (by omega), fun _ => Or.inr ?_⟩
          rw [add64_eq (by omega)]; omega
        · rw [nextNalu_eq hl (by omega) (by omega)]
          split
          · exact Or.inl rfl
          · split
            · exact Or.inl rfl
            · rename_i h2
              have : sizeAt data k i < 2 ^ 64 := Nat.mod_lt _ (by decide)
              exact Or.inr ⟨_, _, rfl, by omega, fun h => absurd h h0⟩
      rcases hnext with hn | ⟨j, n, hn, hb, hz⟩
      · rw [hn, Res.val_bind] at h ⊢
        simp only [Res.pure_eq, Res.val.injEq, Prod.mk.injEq] at h
        obtain ⟨rfl, rfl, rfl⟩ := h
        exact ⟨[], rfl, .nil⟩
      · rw [hn, Res.val_bind] at h ⊢
        dsimp only at h ⊢
        rcases hb with hb | hb
        · cases hp : parseNalUnit nd o data j n σ c with
          | bad e => rw [hp, Res.bad_bind] at h; cases h
          | val r =>
            obtain ⟨x, σ1, c1⟩ := r
            rw [hp, Res.val_bind] at h
            obtain ⟨x', e1, hs, hc, ho⟩ := C79_nal_unit (o' := o') hl hb hp
            rw [e1, Res.val_bind]
            cases hu : parseLengthLoop nd o data k f (add64 j n) σ1 c1 with
            | bad e => rw [hu, Res.bad_bind] at h; cases h
            | val r =>
              obtain ⟨ms, σ2, c2⟩ := r
              obtain ⟨ms', e2, hms⟩ := ih (add64 j n) hz hu
              rw [hu, Res.val_bind] at h
              rw [e2, Res.val_bind]
              dsimp only at h ⊢
              have hns : ns = consUnit j k x ms ∧ σ2 = σ' ∧ c2 = c' := by
                cases x <;> simp only [Res.pure_eq, Res.val.injEq, Prod.mk.injEq] at h <;> exact ⟨h.1.symm, h.2⟩
              obtain ⟨rfl, rfl, rfl⟩ := hns
              exact ⟨consUnit j k x' ms', by cases x' <;> rfl, hms.opt hs hc ho⟩
        · rw [parseNalUnit_huge hb, Res.bad_bind] at h
          cases h
    · rename_i hi
      simp only [Res.val.injEq, Prod.mk.injEq] at h
      obtain ⟨rfl, rfl, rfl⟩ := h
      exact ⟨[], by rw [if_neg hi], .nil⟩

/-- C79 for ParseBitstreamNALULength with a parser state, for every size of the length fields. -/
theorem C79_length_stream {nd : Bool} {o o' : ParsingOptions} {data : List UInt8} (hl : data.length < 2 ^ 61) {k : Nat} {σ σ' : Store}
    {c c' : Nat} {b : Bitstream} (h : parseBitstreamNALULength nd o data k σ c = .val (b, σ', c')) :
    ∃ b', parseBitstreamNALULength nd o' data k σ c = .val (b', σ', c') ∧ SameUnits o o' b.nal_units b'.nal_units ∧
      b'.parsing_options = b.parsing_options := by
  unfold parseBitstreamNALULength at h ⊢
  cases h1 : parseLengthLoop nd o data k data.length 0 σ c with
  | bad e => rw [h1] at h; cases h
  | val x =>
    obtain ⟨ns, τ, d⟩ := x
    rw [h1, Res.val_bind] at h
    simp only [Res.pure_eq, Res.val.injEq, Prod.mk.injEq] at h
    obtain ⟨rfl, rfl, rfl⟩ := h
    obtain ⟨ns', e, hs⟩ := lengthLoop_options (o' := o') hl data.length 0 (fun _ => Or.inl rfl) h1
    rw [e, Res.val_bind]
    exact ⟨_, rfl, hs, rfl⟩

/-- C79 for the calls without parser state: the result also carries the options of the call. -/
theorem C79_fresh {nd : Bool} {o o' : ParsingOptions} {data : List UInt8} (hl : data.length < 2 ^ 61) {c c' : Nat} {b : Bitstream} :
    (parseBitstreamFresh nd o data c = .val (b, c') →
      ∃ b', parseBitstreamFresh nd o' data c = .val (b', c') ∧ SameUnits o o' b.nal_units b'.nal_units ∧
        b.parsing_options = o ∧ b'.parsing_options = o') ∧
    (∀ k, parseBitstreamNALULengthFresh nd o data k c = .val (b, c') →
      ∃ b', parseBitstreamNALULengthFresh nd o' data k c = .val (b', c') ∧ SameUnits o o' b.nal_units b'.nal_units ∧
        b.parsing_options = o ∧ b'.parsing_options = o') := by
  constructor
  · intro h
    unfold parseBitstreamFresh at h ⊢
    cases h1 : parseBitstream nd o data {} c with
    | bad e => rw [h1] at h; cases h
    | val x =>
      obtain ⟨b1, τ, d⟩ := x
      rw [h1, Res.val_bind] at h
      simp only [Res.pure_eq, Res.val.injEq, Prod.mk.injEq] at h
      obtain ⟨rfl, rfl⟩ := h
      obtain ⟨b', e, hs, _⟩ := C79_stream (o' := o') hl h1
      rw [e, Res.val_bind]
      exact ⟨_, rfl, hs, rfl, rfl⟩
  · intro k h
    unfold parseBitstreamNALULengthFresh at h ⊢
    cases h1 : parseBitstreamNALULength nd o data k {} c with
    | bad e => rw [h1] at h; cases h
    | val x =>
      obtain ⟨b1, τ, d⟩ := x
      rw [h1, Res.val_bind] at h
      simp only [Res.pure_eq, Res.val.injEq, Prod.mk.injEq] at h
      obtain ⟨rfl, rfl⟩ := h
      obtain ⟨b', e, hs, _⟩ := C79_length_stream (o' := o') hl h1
      rw [e, Res.val_bind]
      exact ⟨_, rfl, hs, rfl, rfl⟩

/-! ### Example -/

/-- A stream of an SPS, a PPS and a slice, parsed with and without checksums: three NAL units each time. -/
example (nd : Bool) : ∃ r, (do
    let a ← parseBitstream nd {} (annexB [(true, exStapSpsNal), (true, exStapPps601), (true, exStapSlice)]) {} 0
    let b ← parseBitstream nd { add_checksum := false, add_offset := false }
      (annexB [(true, exStapSpsNal), (true, exStapPps601), (true, exStapSlice)]) {} 0
    pure (a.1.nal_units, b.1.nal_units)) = .val r ∧
    (r.1.map (fun n => n.checksum.isSome), r.2.map (fun n => n.checksum.isSome)) =
      ([true, true, true], [false, false, false]) := by
  cases nd <;> exact exists_dec (by decide +kernel)

end H264.Props
