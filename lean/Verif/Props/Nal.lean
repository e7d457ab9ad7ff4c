import Verif.NalLemmas
import Verif.Spec.Nal
import Verif.Props.Split

/-
ParseNalUnit and ParseBitstream: C18, C35.
-/

namespace H264.Props
open H264.Spec Prog

instance (nd : Bool) (n : Nat) : Decidable (Fits nd n) := by unfold Fits; infer_instance

theorem Buf.new_bad {nd : Bool} {bytes : List UInt8} (h : bytes.length < 2 ^ 61) (hf : ¬ Fits nd bytes.length) :
    Buf.new nd bytes = .bad .assertFail := by
  cases nd with
  | true => exact absurd (by rw [Fits, if_pos rfl]; exact h) hf
  | false =>
    rw [Fits, if_neg (by decide)] at hf
    show Buf.mk' bytes = _
    unfold Buf.mk'
    rw [show decide (bytes.length ≤ 2 ^ 32 - 1) = false by simpa using hf]
    rfl

theorem lt_maxVector : 2 ^ 61 ≤ maxVector := by decide

/-- Everything ParseNalUnit does, on the bits of the unescaped NAL unit. -/
theorem parseNalUnit_eqL {nd : Bool} {data : List UInt8} {off len : Nat} (h : off + len ≤ data.length)
    (hl : data.length < 2 ^ 61) (opts : ParsingOptions) (σ : Store) (cnt : Nat) :
    parseNalUnit nd opts data off len σ cnt =
      if Fits nd (strip ((data.drop off).take len)).length then nalUnitL nd opts (strip ((data.drop off).take len)) σ cnt
      else .bad .assertFail := by
  have hm := lt_maxVector
  rw [parseNalUnit_eq h (by omega)]
  have hs := strip_length ((data.drop off).take len)
  have hs2 : ((data.drop off).take len).length ≤ data.length := by rw [List.length_take, List.length_drop]; omega
  by_cases hf : Fits nd (strip ((data.drop off).take len)).length
  · rw [if_pos hf, parseNalUnitUnescaped_eq hf]
  · rw [if_neg hf]
    unfold parseNalUnitUnescaped
    rw [Buf.new_bad (by omega) hf]
    rfl

theorem parseNalUnit_val {nd : Bool} {data : List UInt8} {off len : Nat} (h : off + len ≤ data.length)
    (hl : data.length < 2 ^ 61) {opts : ParsingOptions} {σ : Store} {cnt : Nat} {r : Option NalUnit × Store × Nat}
    (he : parseNalUnit nd opts data off len σ cnt = .val r) :
    nalUnitL nd opts (strip ((data.drop off).take len)) σ cnt = .val r := by
  rw [parseNalUnit_eqL h hl] at he
  split at he
  · exact he
  · cases he

/-- A NAL unit that does not parse leaves the stored parameter sets alone. -/
theorem parseNalUnit_none {nd : Bool} {data : List UInt8} {off len : Nat} (h : off + len ≤ data.length)
    (hl : data.length < 2 ^ 61) {opts : ParsingOptions} {σ σ' : Store} {cnt cnt' : Nat}
    (he : parseNalUnit nd opts data off len σ cnt = .val (none, σ', cnt')) : σ' = σ := by
  rcases nalUnitL_cases (parseNalUnit_val h hl he) with ⟨_, rfl, _⟩ | ⟨_, _, _, _, h1, _⟩
  · rfl
  · cases h1

theorem parseUnits_inOrder {nd : Bool} {opts : ParsingOptions} {data : List UInt8} (hl : data.length < 2 ^ 61) :
    ∀ (ixs : List NaluIndex), (∀ e ∈ ixs, e.payload_start_offset + e.payload_size ≤ data.length) →
    ∀ (σ : Store) (c : Nat) (ns : List NalUnit) (σ' : Store) (c' : Nat),
      parseUnits nd opts data ixs σ c = .val (ns, σ', c') ↔
        InOrder (fun b => parseNalUnit nd opts b 0 b.length) (ixs.map fun e => (e.payload_start_offset, sliceOf data e)) σ c ns σ' c'
  | [], _, σ, c, ns, σ', c' => by
    simp only [parseUnits, List.map_nil, Res.val.injEq, Prod.mk.injEq]
    constructor
    · rintro ⟨rfl, rfl, rfl⟩; exact .nil _ _
    · intro h; cases h; exact ⟨rfl, rfl, rfl⟩
  | ix :: ixs, hin, σ, c, ns, σ', c' => by
    have hix := hin ix (by simp)
    have hm := lt_maxVector
    have hloc := parseNalUnit_local (nd := nd) (off := ix.payload_start_offset) (len := ix.payload_size) hix (by omega) opts σ c
    have ih := parseUnits_inOrder (nd := nd) (opts := opts) hl ixs (fun e he => hin e (by simp [he]))
    have hlen : (sliceOf data ix).length = ix.payload_size := by
      simp only [sliceOf, List.length_take, List.length_drop]; omega
    simp only [parseUnits, List.map_cons]
    rw [hloc]
    change (parseNalUnit nd opts (sliceOf data ix) 0 (sliceOf data ix).length σ c >>= _) = _ ↔ _
    cases hp : parseNalUnit nd opts (sliceOf data ix) 0 (sliceOf data ix).length σ c with
    | bad e =>
      rw [Res.bad_bind]
      constructor
      · intro h; cases h
      · intro h; cases h with
        | skip h1 h2 => rw [hp] at h1; cases h1
        | unit h1 h2 => rw [hp] at h1; cases h1
    | val r =>
      obtain ⟨n, σ1, c1⟩ := r
      rw [Res.val_bind]
      dsimp only
      constructor
      · intro h
        cases hu : parseUnits nd opts data ixs σ1 c1 with
        | bad e => rw [hu, Res.bad_bind] at h; cases h
        | val r =>
          obtain ⟨ns1, σ2, c2⟩ := r
          rw [hu, Res.val_bind] at h
          have hi := (ih _ _ _ _ _).mp hu
          cases n with
          | none =>
            simp only [Res.pure_eq, Res.val.injEq, Prod.mk.injEq] at h
            obtain ⟨rfl, rfl, rfl⟩ := h
            have : σ1 = σ := parseNalUnit_none (by omega) (by omega) hp
            subst this
            exact .skip hp hi
          | some n =>
            simp only [Res.pure_eq, Res.val.injEq, Prod.mk.injEq] at h
            obtain ⟨rfl, rfl, rfl⟩ := h
            rw [← hlen]
            exact .unit hp hi
      · intro h
        cases h with
        | skip h1 h2 =>
          rw [hp] at h1
          simp only [Res.val.injEq, Prod.mk.injEq] at h1
          obtain ⟨rfl, rfl, rfl⟩ := h1
          rw [(ih _ _ _ _ _).mpr h2, Res.val_bind]
          rfl
        | unit h1 h2 =>
          rw [hp] at h1
          simp only [Res.val.injEq, Prod.mk.injEq] at h1
          obtain ⟨rfl, rfl, rfl⟩ := h1
          rw [(ih _ _ _ _ _).mpr h2, Res.val_bind]
          simp only [Res.pure_eq, Res.val.injEq, Prod.mk.injEq, List.cons.injEq, and_true]
          rw [hlen]

/-- C18: ParseBitstream finds the NAL units of the stream and parses them in order with ParseNalUnit. -/
theorem C18_in_order (nd : Bool) (opts : ParsingOptions) (data : List UInt8) (hl : data.length < 2 ^ 61) (σ : Store) (c : Nat)
    (bs : Bitstream) (σ' : Store) (c' : Nat) :
    parseBitstream nd opts data σ c = .val (bs, σ', c') ↔
      bs.parsing_options = {} ∧
      InOrder (fun b => parseNalUnit nd opts b 0 b.length)
        ((entries data (starts data)).map fun e => (e.payload_start_offset, sliceOf data e)) σ c bs.nal_units σ' c' := by
  unfold parseBitstream
  rw [C13_find_exact data (by omega), Res.val_bind]
  have hk := parseUnits_inOrder (nd := nd) (opts := opts) hl (entries data (starts data))
    (fun e he => (entries_inside data _ (starts_sorted data) (fun p hp => mem_starts.mp hp) e he).2.2) σ c
  constructor
  · intro h
    cases hu : parseUnits nd opts data (entries data (starts data)) σ c with
    | bad e => rw [hu, Res.bad_bind] at h; cases h
    | val r =>
      obtain ⟨ns1, σ2, c2⟩ := r
      rw [hu, Res.val_bind] at h
      simp only [Res.pure_eq, Res.val.injEq, Prod.mk.injEq] at h
      obtain ⟨rfl, rfl, rfl⟩ := h
      exact ⟨rfl, (hk _ _ _).mp hu⟩
  · rintro ⟨h1, h2⟩
    rw [(hk _ _ _).mpr h2, Res.val_bind]
    obtain ⟨po, ns⟩ := bs
    simp only at h1
    subst h1
    rfl

/-- C18: the overload without a state starts with no parameter sets, and stores the options. -/
theorem C18_fresh (nd : Bool) (opts : ParsingOptions) (data : List UInt8) (c : Nat) (bs : Bitstream) (c' : Nat) :
    parseBitstreamFresh nd opts data c = .val (bs, c') ↔
      bs.parsing_options = opts ∧ ∃ bs' σ', parseBitstream nd opts data {} c = .val (bs', σ', c') ∧ bs'.nal_units = bs.nal_units := by
  unfold parseBitstreamFresh
  obtain ⟨po, ns⟩ := bs
  cases parseBitstream nd opts data {} c with
  | bad e => rw [Res.bad_bind]; simp
  | val r =>
    obtain ⟨b1, σ1, c1⟩ := r
    rw [Res.val_bind]
    simp only [Res.pure_eq, Res.val.injEq, Prod.mk.injEq, Bitstream.mk.injEq]
    constructor
    · rintro ⟨⟨rfl, rfl⟩, rfl⟩; exact ⟨rfl, _, _, ⟨rfl, rfl, rfl⟩, rfl⟩
    · rintro ⟨rfl, b', s', ⟨rfl, rfl, rfl⟩, rfl⟩; exact ⟨⟨rfl, rfl⟩, rfl⟩

theorem annexBUnits_eq : ∀ (us : List (Bool × List UInt8)) (pos : Nat), (∀ x ∈ us, Carriable x.2) →
    annexBUnits pos us = ((starts (annexB us)).map (fun p => p + 3 + pos)).zip (us.map Prod.snd)
  | [], _, _ => by simp [annexBUnits]
  | (long, u) :: r, pos, hu => by
    have e : annexB ((long, u) :: r) = codeOf long ++ u ++ annexB r := rfl
    rw [e, starts_unit (hu (long, u) (by simp)), annexBUnits, annexBUnits_eq r _ (fun x hx => hu x (by simp [hx]))]
    have hc : (if long = true then 4 else 3) = (codeOf long).length := by cases long <;> rfl
    have hk : (codeOf long).length - 3 + 3 = (codeOf long).length := by cases long <;> rfl
    simp only [List.map_cons, List.map_map, List.zip_cons_cons, hc]
    congr 2
    · omega
    · apply List.map_congr_left
      intro p _
      show _ = p + ((codeOf long).length + u.length) + 3 + pos
      omega

theorem annexB_entries (us : List (Bool × List UInt8)) (hu : ∀ x ∈ us, Carriable x.2) (hl : (annexB us).length < 2 ^ 64) :
    (entries (annexB us) (starts (annexB us))).map (fun e => (e.payload_start_offset, sliceOf (annexB us) e)) = annexBUnits 0 us := by
  obtain ⟨idx, h1, h2⟩ := C15_mux_demux us hu hl
  rw [C13_find_exact _ hl] at h1
  cases h1
  rw [annexBUnits_eq us 0 hu, ← h2]
  have := entries_map (annexB us) (starts (annexB us))
  simp only [Nat.add_zero]
  rw [← this, List.zip_map']

/-- C18: parsing the Annex B stream of a list of NAL units parses those NAL units in order. -/
theorem C18_annexB (nd : Bool) (opts : ParsingOptions) (us : List (Bool × List UInt8)) (hu : ∀ x ∈ us, Carriable x.2)
    (hl : (annexB us).length < 2 ^ 61) (σ : Store) (c : Nat) (bs : Bitstream) (σ' : Store) (c' : Nat) :
    parseBitstream nd opts (annexB us) σ c = .val (bs, σ', c') ↔
      bs.parsing_options = {} ∧
      InOrder (fun b => parseNalUnit nd opts b 0 b.length) (annexBUnits 0 us) σ c bs.nal_units σ' c' := by
  rw [C18_in_order nd opts _ hl, annexB_entries us hu (by omega)]

/-! ### The parameter set store -/

theorem latest_append {α : Type} (key : α → Nat) (a b : List α) (id : Nat) (old : Option α) :
    latest key (a ++ b) id old = latest key b id (latest key a id old) := by
  simp only [latest, List.filter_append, List.getLast?_append, Option.or_assoc]

theorem latest_nil {α : Type} (key : α → Nat) (id : Nat) (old : Option α) : latest key [] id old = old := rfl

theorem latest_one {α : Type} (key : α → Nat) (a : α) (id : Nat) (old : Option α) :
    latest key [a] id old = if id = key a then some a else old := by
  unfold latest
  by_cases h : id = key a
  · rw [if_pos h]; simp [h]
  · rw [if_neg h]; simp [Ne.symm h]

theorem LatestOf.append {σ σ1 σ2 : Store} {a b : List Payload} (h1 : LatestOf σ a σ1) (h2 : LatestOf σ1 b σ2) :
    LatestOf σ (a ++ b) σ2 := by
  intro id
  obtain ⟨x1, x2, x3⟩ := h1 id
  obtain ⟨y1, y2, y3⟩ := h2 id
  simp only [spsOf, ppsOf, subsetSpsOf, List.filterMap_append, latest_append]
  simp only [spsOf, ppsOf, subsetSpsOf] at x1 x2 x3 y1 y2 y3
  rw [y1, y2, y3, x1, x2, x3]
  exact ⟨rfl, rfl, rfl⟩

theorem latestOf_none (σ : Store) (p : Payload) (h1 : p.sps = none) (h2 : p.pps = none) (h3 : p.subset_sps = none) :
    LatestOf σ [p] σ := by
  intro id
  simp [spsOf, ppsOf, subsetSpsOf, h1, h2, h3, latest_nil]

theorem latestOf_sps (σ : Store) (x : SpsData) : LatestOf σ [{ sps := some x }] (σ.addSps (some x)) := by
  intro id
  simp only [spsOf, ppsOf, subsetSpsOf, Store.addSps, upd, List.filterMap_cons, List.filterMap_nil, latest_nil, latest_one, and_self]

theorem latestOf_pps (σ : Store) (x : Pps) : LatestOf σ [{ pps := some x }] (σ.addPps (some x)) := by
  intro id
  simp only [spsOf, ppsOf, subsetSpsOf, Store.addPps, upd, List.filterMap_cons, List.filterMap_nil, latest_nil, latest_one, and_self]

theorem latestOf_subsetSps (σ : Store) (x : SubsetSps) : LatestOf σ [{ subset_sps := some x }] (σ.addSubsetSps (some x)) := by
  intro id
  simp only [spsOf, ppsOf, subsetSpsOf, Store.addSubsetSps, upd, List.filterMap_cons, List.filterMap_nil, latest_nil, latest_one,
    and_self]

theorem payload_latest (nd : Bool) {σ σ' : Store} (h : NalHeader) {s s' : LSt} {p : Payload}
    (he : runL nd (parsePayload σ h) s = .ok (p, σ') s') : LatestOf σ [p] σ' := by
  rw [runL_payload] at he
  revert he
  split
  · cases runL nd (parseSliceLayer σ h.nal_ref_idc h.nal_unit_type) s <;> simp <;> rintro rfl rfl _ <;>
      exact latestOf_none _ _ rfl rfl rfl
  split
  · cases runL nd parseSps s <;> simp <;> rintro rfl rfl _
    · exact latestOf_sps _ _
    · exact latestOf_none _ _ rfl rfl rfl
  split
  · cases runL nd (parsePps 1) s <;> simp <;> rintro rfl rfl _
    · exact latestOf_pps _ _
    · exact latestOf_none _ _ rfl rfl rfl
  split
  · cases runL nd (parsePrefixPayload h) s <;> simp <;> rintro rfl rfl _ <;>
      exact latestOf_none _ _ rfl rfl rfl
  split
  · cases runL nd parseSubsetSps s <;> simp <;> rintro rfl rfl _
    · exact latestOf_subsetSps _ _
    · exact latestOf_none _ _ rfl rfl rfl
  split
  · cases runL nd (parseSliceLayerExt σ h) s <;> simp <;> rintro rfl rfl _ <;>
      exact latestOf_none _ _ rfl rfl rfl
  simp; rintro rfl rfl _; exact latestOf_none _ _ rfl rfl rfl

/-- C35: after ParseNalUnit the store holds, for every id, the parameter set just parsed if it has that id, and otherwise what
it held before. -/
theorem C35_nal_unit {nd : Bool} {data : List UInt8} {off len : Nat} (h : off + len ≤ data.length)
    (hl : data.length < 2 ^ 61) {opts : ParsingOptions} {σ σ' : Store} {cnt cnt' : Nat} {n : Option NalUnit}
    (he : parseNalUnit nd opts data off len σ cnt = .val (n, σ', cnt')) :
    LatestOf σ (n.toList.map (·.nal_unit_payload)) σ' := by
  rcases nalUnitL_cases (parseNalUnit_val h hl he) with ⟨rfl, rfl, _⟩ | ⟨hd, s, p, s', rfl, _, h2, _⟩
  · intro id; exact ⟨rfl, rfl, rfl⟩
  · exact payload_latest nd hd h2

/-- C35: a NAL unit that does not parse, or whose payload is not a parameter set that parses, leaves the store exactly as it
was. -/
theorem C35_atomic {nd : Bool} {data : List UInt8} {off len : Nat} (h : off + len ≤ data.length)
    (hl : data.length < 2 ^ 61) {opts : ParsingOptions} {σ σ' : Store} {cnt cnt' : Nat} {n : Option NalUnit}
    (he : parseNalUnit nd opts data off len σ cnt = .val (n, σ', cnt'))
    (hn : ∀ u ∈ n, u.nal_unit_payload.sps = none ∧ u.nal_unit_payload.pps = none ∧ u.nal_unit_payload.subset_sps = none) :
    σ' = σ := by
  have hk := C35_nal_unit h hl he
  have : ∀ id, σ'.sps id = σ.sps id ∧ σ'.pps id = σ.pps id ∧ σ'.subset_sps id = σ.subset_sps id := by
    intro id
    have := hk id
    cases n with
    | none => exact this
    | some u =>
      obtain ⟨a, b, c⟩ := hn u rfl
      simpa [spsOf, ppsOf, subsetSpsOf, a, b, c, latest_nil] using this
  obtain ⟨f, g, k⟩ := σ
  obtain ⟨f', g', k'⟩ := σ'
  simp only [Store.mk.injEq]
  exact ⟨funext fun id => (this id).1, funext fun id => (this id).2.1, funext fun id => (this id).2.2⟩

/-- C35: after any sequence of NAL units, the store holds for every id the parameter set that was parsed last. -/
theorem C35_sequence {nd : Bool} {opts : ParsingOptions} {us : List (Nat × List UInt8)} {σ σ' : Store} {c c' : Nat}
    {ns : List NalUnit} (hu : ∀ u ∈ us, u.2.length < 2 ^ 61)
    (h : InOrder (fun b => parseNalUnit nd opts b 0 b.length) us σ c ns σ' c') :
    LatestOf σ (ns.map (·.nal_unit_payload)) σ' := by
  induction h with
  | nil σ c => intro id; exact ⟨rfl, rfl, rfl⟩
  | skip h1 h2 ih => exact ih (fun u hu' => hu u (by simp [hu']))
  | @unit off bytes _ _ _ _ _ _ _ n ns h1 h2 ih =>
    have hb : bytes.length < 2 ^ 61 := hu (off, bytes) (by simp)
    have a := C35_nal_unit (data := bytes) (by omega) hb h1
    exact LatestOf.append a (ih (fun u hu' => hu u (by simp [hu'])))

/-- C35: the same for a whole bitstream. -/
theorem C35_bitstream {nd : Bool} {opts : ParsingOptions} {data : List UInt8} (hl : data.length < 2 ^ 61) {σ σ' : Store} {c c' : Nat}
    {bs : Bitstream} (h : parseBitstream nd opts data σ c = .val (bs, σ', c')) :
    LatestOf σ (bs.nal_units.map (·.nal_unit_payload)) σ' := by
  refine C35_sequence ?_ ((C18_in_order nd opts data hl σ c bs σ' c').mp h).2
  intro u hu
  simp only [List.mem_map] at hu
  obtain ⟨e, _, rfl⟩ := hu
  simp only [sliceOf, List.length_take, List.length_drop]
  omega

/-! ### Which parser a NAL unit goes to -/

/-- C50: a payload field is only filled for its NAL unit type, so at most one is. -/
theorem C50_payload_type {nd : Bool} {data : List UInt8} {off len : Nat} (h : off + len ≤ data.length)
    (hl : data.length < 2 ^ 61) {opts : ParsingOptions} {σ σ' : Store} {cnt cnt' : Nat} {n : NalUnit}
    (he : parseNalUnit nd opts data off len σ cnt = .val (some n, σ', cnt')) :
    (n.nal_unit_payload.sps.isSome → n.nal_unit_header.nal_unit_type = 7) ∧
    (n.nal_unit_payload.pps.isSome → n.nal_unit_header.nal_unit_type = 8) ∧
    (n.nal_unit_payload.slice_layer_without_partitioning_rbsp.isSome →
      n.nal_unit_header.nal_unit_type = 1 ∨ n.nal_unit_header.nal_unit_type = 5) ∧
    (n.nal_unit_payload.prefix_nal_unit.isSome → n.nal_unit_header.nal_unit_type = 14) ∧
    (n.nal_unit_payload.subset_sps.isSome → n.nal_unit_header.nal_unit_type = 15) ∧
    (n.nal_unit_payload.slice_layer_extension_rbsp.isSome → n.nal_unit_header.nal_unit_type = 20) := by
  rcases nalUnitL_cases (parseNalUnit_val h hl he) with ⟨h1, _⟩ | ⟨hd, s, p, s', h1, _, h2, _⟩
  · cases h1
  cases h1
  dsimp only
  rw [runL_payload] at h2
  revert h2
  split
  · cases runL nd (parseSliceLayer σ hd.nal_ref_idc hd.nal_unit_type) s <;> simp <;> rintro rfl _ _ <;> simp <;> assumption
  split
  · cases runL nd parseSps s <;> simp <;> rintro rfl _ _ <;> simp <;> assumption
  split
  · cases runL nd (parsePps 1) s <;> simp <;> rintro rfl _ _ <;> simp <;> assumption
  split
  · cases runL nd (parsePrefixPayload hd) s <;> simp <;> rintro rfl _ _ <;> simp <;> intros <;> assumption
  split
  · cases runL nd parseSubsetSps s <;> simp <;> rintro rfl _ _ <;> simp <;> assumption
  split
  · cases runL nd (parseSliceLayerExt σ hd) s <;> simp <;> rintro rfl _ _ <;> simp <;> assumption
  simp; rintro rfl _ _; simp

/-! ### Example: the stream of test/h264_bitstream_parser_unittest.cc -/

/-- SPS, PPS, IDR slice and non-IDR slice, each after a four-byte start code
(test/h264_bitstream_parser_unittest.cc:24-42). -/
def ex601 : List UInt8 :=
  [0x00, 0x00, 0x00, 0x01, 0x67, 0x42, 0xc0, 0x16, 0xa6, 0x11, 0x05, 0x07, 0xe9, 0xb2, 0x00, 0x00, 0x03, 0x00, 0x02, 0x00,
   0x00, 0x03, 0x00, 0x64, 0x1e, 0x2c, 0x5c, 0x23, 0x00, 0x00, 0x00, 0x01, 0x68, 0xc8, 0x42, 0x02, 0x32, 0xc8,
   0x00, 0x00, 0x00, 0x01, 0x65, 0x88, 0x82, 0x06, 0x78, 0x8c, 0x50, 0x00, 0x1c, 0xab, 0x8e, 0x00, 0x02, 0xfb, 0x31, 0xc0,
   0x00, 0x5f, 0x66, 0xfb, 0xef, 0xbe, 0x00, 0x00, 0x00, 0x01, 0x41, 0x9a, 0x1c, 0x0c, 0xf0, 0x09, 0x6c]

/-- It parses; all four NAL units are returned with their payloads, at the offsets, lengths and parsed lengths the unit test
expects, and the two parameter sets are stored. -/
theorem ex601_parse : ∃ r, parseBitstream false {} ex601 {} 0 = .val r ∧
    (r.1.nal_units.map (fun n => (n.offset, n.length, n.parsed_length)) == [(4, 24, 22), (32, 6, 6), (42, 22, 5), (68, 7, 5)] &&
     r.1.nal_units.map (fun n => n.nal_unit_header.nal_unit_type) == [7, 8, 5, 1] &&
     r.1.nal_units.map (fun n => n.checksum.map (fun x => x.checksum.take x.length)) ==
       [some [0xac, 0x71, 0x1c, 0xb4], some [0x64, 0x6f, 0xbd, 0xfd], some [0x12, 0x27, 0x07, 0x3d], some [0xce, 0x5c, 0x77, 0xf2]] &&
     r.1.nal_units.all (fun n => n.nal_unit_payload.isPayloadParsed n.nal_unit_header.nal_unit_type) &&
     (r.2.1.sps 0).isSome && (r.2.1.pps 0).isSome) = true :=
  Res.exists_of_passes (by decide +kernel)

/-- C18 on it: a four-element list of NAL units parsed in order. -/
example : ∃ r : List NalUnit × Store × Nat, InOrder (fun b => parseNalUnit false {} b 0 b.length)
    ((entries ex601 (starts ex601)).map fun e => (e.payload_start_offset, sliceOf ex601 e)) {} 0 r.1 r.2.1 r.2.2 ∧
    r.1.length = 4 := by
  obtain ⟨⟨bs, σ', c'⟩, h, h2⟩ := ex601_parse
  refine ⟨(bs.nal_units, σ', c'), ((C18_in_order false {} ex601 (by decide) {} 0 bs σ' c').mp h).2, ?_⟩
  simp only [Bool.and_eq_true, beq_iff_eq] at h2
  have := congrArg List.length h2.1.1.1.1.1
  simpa using this

/-- C18, the other form: these four NAL units are `Carriable` and the stream is their Annex B encoding. -/
example : ∃ us : List (Bool × List UInt8), us.length = 4 ∧ (∀ x ∈ us, Carriable x.2) ∧ annexB us = ex601 := by
  refine ⟨[(true, (ex601.drop 4).take 24), (true, (ex601.drop 32).take 6), (true, (ex601.drop 42).take 22),
    (true, (ex601.drop 68).take 7)], rfl, ?_, by decide +kernel⟩
  intro x hx
  simp only [List.mem_cons, List.not_mem_nil, or_false] at hx
  rcases hx with rfl | rfl | rfl | rfl <;>
  exact carriable_of (by decide +kernel) (by decide +kernel) (by decide +kernel)

/-- C35 on it: SPS 0 and PPS 0 of the store are the ones in the stream. -/
example : ∃ r : Bitstream × Store × Nat, parseBitstream false {} ex601 {} 0 = .val r ∧
    LatestOf {} (r.1.nal_units.map (·.nal_unit_payload)) r.2.1 ∧ (r.2.1.sps 0).isSome ∧ (r.2.1.pps 0).isSome := by
  obtain ⟨⟨bs, σ', c'⟩, h, h2⟩ := ex601_parse
  simp only [Bool.and_eq_true] at h2
  exact ⟨_, h, C35_bitstream (by decide) h, h2.1.2, h2.2⟩

/-- C35, atomicity: a truncated SPS after the stream is returned without payload and leaves the store alone. -/
example : ∃ bs σ c n c', parseBitstream false {} ex601 {} 0 = .val (bs, σ, c) ∧ (σ.sps 0).isSome ∧
    parseNalUnit false {} [0x67, 0x42] 0 2 σ c = .val (some n, σ, c') := by
  obtain ⟨⟨bs, σ, c⟩, h, h2⟩ : ∃ r, parseBitstream false {} ex601 {} 0 = .val r ∧ ((r.2.1.sps 0).isSome &&
      (parseNalUnit false {} [0x67, 0x42] 0 2 r.2.1 r.2.2).passes (fun r => r.1.any (fun u => u.nal_unit_payload.sps.isNone &&
        u.nal_unit_payload.pps.isNone && u.nal_unit_payload.subset_sps.isNone))) = true :=
    Res.exists_of_passes (by decide +kernel)
  rw [Bool.and_eq_true] at h2
  obtain ⟨⟨n, σ', c'⟩, h3, h4⟩ := Res.exists_of_passes h2.2
  cases n with
  | none => cases h4
  | some n =>
    have : σ' = σ := by
      refine C35_atomic (by decide) (by decide) h3 ?_
      intro u hu
      cases hu
      simpa [and_assoc] using h4
    subst this
    exact ⟨bs, _, c, n, c', h, h2.1, h3⟩

/-- C50: each kind of payload of the example stream. -/
example : ∃ r : Option NalUnit × Store × Nat, parseNalUnit true {} ((ex601.drop 32).take 6) 0 6 {} 0 = .val r ∧
    (r.1.any (fun n => n.nal_unit_payload.pps.isSome && n.nal_unit_header.nal_unit_type == 8)) = true :=
  Res.exists_of_passes (by decide +kernel)

end H264.Props
