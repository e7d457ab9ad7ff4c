import Verif.Handmade
import Verif.Model.Handmade
import Verif.Props.Common
import Verif.Props.StapA
import Verif.Props.Split

/-
C80: parser states filled by the program.  What matters of the parameter sets in a state is small (`Store.Usable`); the theorems say
that it is enough for every function to return, that parsing keeps it, and that nothing less is enough.
-/

namespace H264.Props
open H264 H264.Spec Prog

/-! ### What a state must satisfy -/

/-- C80: every state that parsing can reach is usable. -/
theorem C80_reachable {σ : Store} (hσ : Reachable σ) : σ.Usable := (C36_reachable_valid hσ).usable

section
variable {nd : Bool} {data : List UInt8} {off len : Nat} (h : off + len ≤ data.length) (hl : data.length < 2 ^ 61)
  (hf : nd = false → len < 2 ^ 32) {σ : Store} (hσ : σ.Usable) (c : Nat)
include h hl hf hσ

/-- C80: with a usable state, whoever has filled it, the functions that parse NAL units and packets return, and leave a usable
state. -/
theorem C80_units (opts : ParsingOptions) (hd : NalHeader) (ref : Nat) :
    (∃ x σ' c', parseNalUnit nd opts data off len σ c = .val (x, σ', c') ∧ σ'.Usable) ∧
    (∃ x σ' c', parsePayloadData nd data off len hd σ c = .val (x, σ', c') ∧ σ'.Usable) ∧
    (∃ x σ' c', parseRtpData nd data off len σ c = .val (x, σ', c') ∧ σ'.Usable) ∧
    (∃ x σ' c', parseRtpSingleData nd data off len σ c = .val (x, σ', c') ∧ σ'.Usable) ∧
    (∃ x σ' c', parseRtpStapAData nd data off len σ c = .val (x, σ', c') ∧ σ'.Usable) ∧
    (∃ x σ' c', parseRtpFuAData nd data off len ref σ c = .val (x, σ', c') ∧ σ'.Usable) := by
  refine ⟨usable_invariant.nalUnit (nd := nd) (opts := opts) h hl hf hσ c, ?_, ?_, ?_, ?_, ?_⟩
  · unfold parsePayloadData
    exact onData_inv (I := Store.Usable) (f := runStore nd σ (parsePayload σ hd)) h hl hf
      (fun s hs => usable_invariant.payload (nd := nd) hd hσ hs) c
  · unfold parseRtpData
    exact onData_inv (I := Store.Usable) (f := parseRtp nd σ) h hl hf
      (fun s hs => usable_invariant.rtp (nd := nd) hσ hs) c
  · unfold parseRtpSingleData
    exact onData_inv (I := Store.Usable) (f := runStore nd σ (parseRtpSingle σ)) h hl hf
      (fun s hs => usable_invariant.rtpSingle (nd := nd) hσ hs) c
  · unfold parseRtpStapAData
    exact onData_inv (I := Store.Usable) (f := parseRtpStapA nd σ) h hl hf
      (fun s hs => usable_invariant.rtpStapA (nd := nd) hσ hs) c
  · unfold parseRtpFuAData
    exact onData_inv (I := Store.Usable) (f := runStore nd σ (parseRtpFuA σ ref)) h hl hf
      (fun s hs => usable_invariant.rtpFuA (nd := nd) ref hσ hs) c

/-- C80: with a usable state the functions that parse slices return. -/
theorem C80_slices (ref type : Nat) (hd : NalHeader) :
    (∃ r, parseSliceHeaderData nd data off len ref type σ c = .val r) ∧
    (∃ r, parseSliceLayerData nd data off len ref type σ c = .val r) ∧
    (∃ r, parseScalHeaderData nd data off len hd σ c = .val r) ∧
    (∃ r, parseSliceLayerExtData nd data off len hd σ c = .val r) :=
  ⟨progData_safe h hl hf c (safe_sliceHeader_usable hσ ref type), progData_safe h hl hf c (safe_sliceLayer_usable hσ ref type),
   progData_safe h hl hf c (safe_scalHeader_usable hσ hd), progData_safe h hl hf c (safe_sliceLayerExt_usable hσ hd)⟩

end

/-- C80 for whole streams. -/
theorem C80_streams {nd : Bool} {data : List UInt8} (hl : data.length < 2 ^ 61) (hf : nd = false → data.length < 2 ^ 32)
    {σ : Store} (hσ : σ.Usable) (opts : ParsingOptions) (c : Nat) :
    (∃ x σ' c', parseBitstream nd opts data σ c = .val (x, σ', c') ∧ σ'.Usable) ∧
    ∀ k ≤ 7, ∃ x σ' c', parseBitstreamNALULength nd opts data k σ c = .val (x, σ', c') ∧ σ'.Usable := by
  refine ⟨usable_invariant.bitstream (nd := nd) (opts := opts) hl ?_ hσ c, fun k hk => usable_invariant.bitstreamNALULength (nd := nd) (opts := opts) hl hf hk hσ c⟩
  intro h0 e he
  have h1 := hf h0
  have h2 := entries_inside data _ (starts_sorted data) (fun p hp => mem_starts.mp hp) e he
  omega

/-- C80 for the functions that take a `BitBuffer`. -/
theorem C80_readers (nd : Bool) {b : Buf} (hb : b.WF) (c : Nat) {σ : Store} (hσ : σ.Usable) (ref type : Nat) (hd : NalHeader)
    (e : Bad) :
    run nd (parseSliceHeader σ ref type) ⟨b, c⟩ ≠ .bad e ∧ run nd (parseSliceLayer σ ref type) ⟨b, c⟩ ≠ .bad e ∧
    run nd (parseScalHeader σ hd) ⟨b, c⟩ ≠ .bad e ∧ run nd (parseSliceLayerExt σ hd) ⟨b, c⟩ ≠ .bad e :=
  ⟨(safe_sliceHeader_usable hσ ref type).run nd hb c e, (safe_sliceLayer_usable hσ ref type).run nd hb c e,
   (safe_scalHeader_usable hσ hd).run nd hb c e, (safe_sliceLayerExt_usable hσ hd).run nd hb c e⟩

/-! ### Nothing less will do -/

theorem runL_bind_of {α β : Type} {nd : Bool} {p : Prog α} {f : α → Prog β} {s s' : LSt} {a : α} (h : runL nd p s = .ok a s') :
    runL nd (p >>= f) s = runL nd (f a) s' := by
  rw [runL_bind, h]; rfl

/-- A state with one SPS and one PPS that the program has filled in, with bit depth `v` and slice group change rate `w`. -/
def handmade (v w : Nat) : Store where
  sps k := if k = 0 then some { bit_depth_luma_minus8 := v, frame_mbs_only_flag := 1, pic_order_cnt_type := 2 } else none
  pps k := if k = 0 then some { num_slice_groups_minus1 := 1, slice_group_map_type := 3, slice_group_change_rate_minus1 := w } else none

theorem handmade_usable {v w : Nat} (hv : UsableDepth v) (hw : UsableRate w) : (handmade v w).Usable := by
  refine ⟨?_, ?_, ?_, ?_⟩ <;> intro k s h <;> dsimp only [handmade] at h <;> split at h <;> cases h
  · exact hv
  · exact hw
  · exact (by decide : 0 < 2 ^ 32 - 1)
  · exact (by decide : 0 < 2 ^ 32 - 1)

/-- A slice header of type I for `handmade`, with a few more bits: first_mb_in_slice 0, slice_type 7, pic_parameter_set_id 0,
frame_num 0, slice_qp_delta 0, 1. -/
def handmadeSlice : List UInt8 := [0x88, 0x87]

theorem opt_bind_neg {α β : Type} {q : Prop} [Decidable q] (h : ¬ q) {d : α} {p : Prog α} {f : α → Prog β} :
    (opt q d p >>= f) = f d := by
  unfold opt; rw [if_neg h]; rfl

theorem runL_lift_bad {α β : Type} {nd : Bool} {x : Res α} {e : Bad} (h : x = .bad e) {f : α → Prog β} {s : LSt} :
    runL nd (lift x >>= f) s = .bad e := by
  rw [h]; rfl

theorem qpDelta_bad {nd : Bool} {v : Nat} (hv : v < 2 ^ 32) (h : ¬ UsableDepth v) {l : List Bool} {c : Nat} :
    runL nd (parseQpDelta v) ⟨true :: l, c⟩ = .bad .overflow := by
  have e0 : runL nd se ⟨true :: l, c⟩ = .ok 0 ⟨l, c⟩ := by
    exact (Codec.se nd _ c _ _).mpr ⟨by decide, l, by rfl, rfl⟩
  unfold parseQpDelta
  rw [runL_bind_of e0]
  unfold UsableDepth at h
  have hx : ∃ x : Int, toI32 v = x ∧ ((x < -357913941) ∨ 357913932 < x) ∧ -(2 ^ 31) ≤ x ∧ x < 2 ^ 31 := by
    refine ⟨_, rfl, ?_⟩
    unfold toI32
    split <;> omega
  obtain ⟨x, e, h1, h2, h3⟩ := hx
  rw [e]
  by_cases hf : fitsI32 (6 * x)
  · have e1 : sint (6 * x) = .val (6 * x) := by unfold sint; rw [if_pos hf]
    rw [e1]
    show runL nd (lift (sint (-51 - 6 * x)) >>= _) _ = _
    refine runL_lift_bad ?_
    unfold sint
    rw [if_neg]
    simp only [fitsI32, decide_eq_true_eq, Bool.and_eq_true] at hf ⊢
    omega
  · refine runL_lift_bad ?_
    unfold sint
    rw [if_neg hf]

theorem handmade_run (nd : Bool) (v w : Nat) : ∃ f : Int → Nat × Int → Nat × Int × Int → Nat × Nat × Nat × Nat → SliceHeader,
    runL nd (parseSliceHeader (handmade v w) 0 1) ⟨allBits handmadeSlice, 0⟩ =
      runL nd (do
        let a ← parseQpDelta v
        let b ← parseSwitching 7
        let c ← parseDeblocking 0 2
        let d ← parseChangeCycle { bit_depth_luma_minus8 := v, frame_mbs_only_flag := 1, pic_order_cnt_type := 2 }
          { num_slice_groups_minus1 := 1, slice_group_map_type := 3, slice_group_change_rate_minus1 := w }
        pure (f a b c d)) ⟨[true, true, true], 0⟩ := by
  have e0 : runL nd parseSliceStart ⟨allBits handmadeSlice, 0⟩ =
      .ok (0, 7, 0) ⟨[false, false, false, false, true, true, true], 0⟩ :=
    (codec_sliceStart nd _ 0 _ _).mpr ⟨by decide, _, by decide +kernel, rfl⟩
  have e1 : runL nd (Prog.u (add32 0 4)) ⟨[false, false, false, false, true, true, true], 0⟩ = .ok 0 ⟨[true, true, true], 0⟩ := by
    have : add32 0 4 = 4 := by decide +kernel
    rw [this, runL_u]; rfl
  have e2 : parseRefPicListMod 7 = pure { slice_type := 7 } := by
    unfold parseRefPicListMod
    rw [opt_bind_neg (by decide), opt_bind_neg (by decide)]
  unfold parseSliceHeader
  rw [runL_bind_of e0]
  dsimp only [handmade]
  rw [if_pos rfl]
  dsimp only
  rw [if_pos rfl]
  dsimp only
  unfold parseSliceBody
  dsimp only
  rw [opt_bind_neg (by decide), runL_bind_of e1]
  unfold parseFieldPic parsePoc0 parsePoc1 parseSliceMod
  rw [opt_bind_neg (by decide), opt_bind_neg (by decide), opt_bind_neg (by decide), opt_bind_neg (by decide), opt_bind_neg (by decide),
    opt_bind_neg (by decide), opt_bind_neg (by decide), if_neg (by decide), e2, pure_bind,
    opt_bind_neg (by decide), opt_bind_neg (by decide), opt_bind_neg (by decide)]
  exact ⟨_, rfl⟩

theorem bad_of_runL {α : Type} {nd : Bool} {p : Prog α} {data : List UInt8} {e : Bad} (hl : data.length < 2 ^ 32)
    (hs : strip data = data) (h : runL nd p ⟨allBits data, 0⟩ = .bad e) : progData nd p data 0 data.length 0 = .bad e := by
  have hw : (Buf.start data).WF := Buf.start_wf (by omega)
  rw [progData_eq p (by omega) (by omega) (fun _ => hl), List.drop_zero, List.take_length, hs, run_eq nd p hw 0, Buf.start_rem, h]
  rfl

/-- C80: of the values of bit_depth_luma_minus8, the usable ones are exactly those with which this slice can be parsed. -/
theorem C80_depth_needed (nd : Bool) {v : Nat} (hv : v < 2 ^ 32) :
    parseSliceHeaderData nd handmadeSlice 0 2 0 1 (handmade v 0) 0 = .bad .overflow ↔ ¬ UsableDepth v := by
  unfold parseSliceHeaderData
  constructor
  · intro h hu
    obtain ⟨r, hr⟩ := progData_safe (nd := nd) (data := handmadeSlice) (off := 0) (len := 2) (by decide) (by decide) (by omega) 0
      (safe_sliceHeader_usable (handmade_usable hu (show UsableRate 0 by unfold UsableRate; omega)) 0 1)
    rw [hr] at h
    cases h
  · intro hu
    refine bad_of_runL (by decide) (by decide +kernel) ?_
    obtain ⟨f, hf⟩ := handmade_run nd v 0
    rw [hf, runL_bind, qpDelta_bad hv hu]
    rfl

/-- C80: of the values of slice_group_change_rate_minus1, the usable ones are exactly those with which this slice can be parsed. -/
theorem C80_rate_needed (nd : Bool) {w : Nat} (hw : w < 2 ^ 32) :
    parseSliceHeaderData nd handmadeSlice 0 2 0 1 (handmade 0 w) 0 = .bad .overflow ↔ ¬ UsableRate w := by
  unfold parseSliceHeaderData
  constructor
  · intro h hu
    obtain ⟨r, hr⟩ := progData_safe (nd := nd) (data := handmadeSlice) (off := 0) (len := 2) (by decide) (by decide) (by omega) 0
      (safe_sliceHeader_usable (handmade_usable (v := 0) (Or.inl (by omega)) hu) 0 1)
    rw [hr] at h
    cases h
  · intro hu
    obtain rfl : w = 4294967295 := by unfold UsableRate at hu; omega
    cases nd <;> decide +kernel

/-! ### Null pointers -/

/-- C80: the parsers of slice headers, with the pointers of the state spelled out, are the ordinary ones when no pointer is null. -/
theorem C80_raw (σ : Store) (ref type : Nat) (hd : NalHeader) :
    parseSliceHeaderRaw σ.raw ref type = parseSliceHeader σ ref type ∧ parseScalHeaderRaw σ.raw hd = parseScalHeader σ hd := by
  constructor
  · unfold parseSliceHeaderRaw parseSliceHeader
    congr 1
    funext x
    dsimp only [Store.raw]
    cases σ.pps x.2.2 with
    | none => rfl
    | some p =>
      dsimp only [Option.map]
      cases σ.sps p.seq_parameter_set_id <;> rfl
  · unfold parseScalHeaderRaw parseScalHeader
    congr 1
    funext x
    dsimp only [Store.raw]
    cases σ.pps x.2.2 with
    | none => rfl
    | some p =>
      dsimp only [Option.map]
      cases σ.subset_sps p.seq_parameter_set_id with
      | none => rfl
      | some ss =>
        dsimp only
        cases ss.seq_parameter_set_svc_extension <;> rfl

section
variable (nd : Bool) {b : Buf} (hb : b.WF) (c : Nat) {ρ : RawStore} {first_mb slice_type pps_id : Nat} {r : List Bool}
  (h1 : first_mb ≤ 139263) (h2 : slice_type ≤ 9) (h3 : pps_id ≤ 255)
  (hr : b.rem = encUE first_mb ++ encUE slice_type ++ encUE pps_id ++ r)
include hb h1 h2 h3 hr

omit h1 h2 h3 hr in
theorem bad_iff {α : Type} (p : Prog α) (e : Bad) : run nd p ⟨b, c⟩ = .bad e ↔ runL nd p ⟨b.rem, c⟩ = .bad e := by
  rw [run_eq nd _ hb c]
  cases runL nd p ⟨b.rem, c⟩ <;> simp [Out.mapSt]

/-- C80: a slice header makes the parser dereference a null pointer exactly if the PPS it names, or the SPS named by that PPS, is
stored as a null pointer, or that SPS has a null `sps_data`; nothing else can go wrong. -/
theorem C80_null_pointers (ref type : Nat)
    (hd : ∀ k s, ρ.sps k = some (some (some s)) → UsableDepth s.bit_depth_luma_minus8)
    (hw : ∀ k p, ρ.pps k = some (some p) → UsableRate p.slice_group_change_rate_minus1) (e : Bad) :
    run nd (parseSliceHeaderRaw ρ ref type) ⟨b, c⟩ = .bad e ↔
      e = .nullDeref ∧ (ρ.pps pps_id = some none ∨ ∃ p, ρ.pps pps_id = some (some p) ∧
        (ρ.sps p.seq_parameter_set_id = some none ∨ ρ.sps p.seq_parameter_set_id = some (some none))) := by
  have e0 : runL nd parseSliceStart ⟨b.rem, c⟩ = .ok (first_mb, slice_type, pps_id) ⟨r, c⟩ :=
    (codec_sliceStart nd _ c _ _).mpr ⟨⟨h1, h2, h3⟩, r, hr, rfl⟩
  rw [bad_iff nd hb c]
  unfold parseSliceHeaderRaw
  rw [runL_bind_of e0]
  dsimp only
  rcases hp : ρ.pps pps_id with _ | _ | p
  · simp
  · simp [eq_comm]
  · dsimp only
    rcases hs : ρ.sps p.seq_parameter_set_id with _ | _ | _ | s
    · simp [hs]
    · simp [hs, eq_comm]
    · simp [hs, eq_comm]
    · have q1 := safe_qpDelta_usable (hd _ _ hs)
      have q2 := safe_changeCycle_usable (s := s) (hw _ _ hp)
      have : Safe (parseSliceBody ref type s p (first_mb, slice_type, pps_id)) := by
        unfold parseSliceBody parseFieldPic parsePoc0 parsePoc1 parseNumRef parseSliceMod parseSwitching parseDeblocking
        safe
      dsimp only
      simp [this nd _ e, hs]

/-- C80 for slice headers in scalable extension: the pointers are those to the PPS and the subset SPS, and, if the subset SPS has an
SVC extension, the one to its SPS. -/
theorem C80_null_pointers_scalable (h : NalHeader)
    (hw : ∀ k p, ρ.pps k = some (some p) → UsableRate p.slice_group_change_rate_minus1) (e : Bad) :
    run nd (parseScalHeaderRaw ρ h) ⟨b, c⟩ = .bad e ↔
      e = .nullDeref ∧ (ρ.pps pps_id = some none ∨ ∃ p, ρ.pps pps_id = some (some p) ∧
        (ρ.subset_sps p.seq_parameter_set_id = some none ∨
          ∃ x, ρ.subset_sps p.seq_parameter_set_id = some (some (none, some x)))) := by
  have e0 : runL nd parseSliceStart ⟨b.rem, c⟩ = .ok (first_mb, slice_type, pps_id) ⟨r, c⟩ :=
    (codec_sliceStart nd _ c _ _).mpr ⟨⟨h1, h2, h3⟩, r, hr, rfl⟩
  rw [bad_iff nd hb c]
  unfold parseScalHeaderRaw
  rw [runL_bind_of e0]
  dsimp only
  rcases hp : ρ.pps pps_id with _ | _ | p
  · simp
  · simp [eq_comm]
  · dsimp only
    rcases hs : ρ.subset_sps p.seq_parameter_set_id with _ | _ | ⟨_ | s, _ | x⟩
    · simp [hs]
    · simp [hs, eq_comm]
    · simp [hs]
    · simp [hs, eq_comm]
    · simp [hs]
    · have q2 := safe_changeCycle_usable (s := s) (hw _ _ hp)
      have : Safe (do
          let cp ← opt (s.separate_colour_plane_flag = 1) 0 (u 2)
          let fn ← u (add32 s.log2_max_frame_num_minus4 4)
          let fp ← parseFieldPic s.frame_mbs_only_flag
          match h.svc_extension with
          | none => null
          | some n => parseScalBody h.nal_ref_idc h.nal_unit_type s p x n (first_mb, slice_type, pps_id) cp fn fp) := by
        unfold parseScalBody parseScalPic parseFieldPic parsePoc0 parsePoc1 parseScalRef parseNumRef parseScalWeights
          parseStoreRef parseScalQp parseDeblocking parseScalLayer parseLayerDeblocking parseRefChroma parseFourSe
          parseScalPred parseModes parseAdaptive parseScan
        cases h.svc_extension with
        | none => safe
        | some e => safe
      refine iff_of_false (this nd _ e) ?_
      simp [hs]

end

/-! ### Examples -/

/-- A usable state that no sequence of parses leads to: the SPS is stored under another id than its own, its values are out of
range, and the PPS names an SPS by an id above 31. -/
def exHandmade : Store where
  sps k := if k = 77 then some { bit_depth_luma_minus8 := 100000, log2_max_frame_num_minus4 := 20, frame_mbs_only_flag := 9
                                 pic_order_cnt_type := 5, chroma_format_idc := 11 } else none
  pps k := if k = 3 then some { pic_parameter_set_id := 5, seq_parameter_set_id := 77, num_slice_groups_minus1 := 90
                                slice_group_map_type := 4, slice_group_change_rate_minus1 := 4294967294 } else none

example : exHandmade.Usable := by
  refine ⟨?_, ?_, ?_, ?_⟩ <;> intro k s h <;> dsimp only [exHandmade] at h <;> split at h <;> cases h
  · exact Or.inl (by decide)
  · exact (by decide : 4294967294 < 2 ^ 32 - 1)
  · exact (by decide : 0 < 2 ^ 32 - 1)
  · exact (by decide : 0 < 2 ^ 32 - 1)

example : ¬ Reachable exHandmade := fun h => absurd ((C36_reachable_valid h).pps 3 _ rfl).2 (by decide)

/-- A slice for it, with 24 bits of frame_num, is parsed. -/
example (nd : Bool) : ∃ r, parseSliceHeaderData nd [0x88, 0x20, 0x91, 0xa2, 0xb7] 0 5 0 1 exHandmade 0 = .val r ∧
    (r.1.map fun h => (h.pic_parameter_set_id, h.frame_num, h.slice_qp_delta)) = some (3, 0x123456, 0) :=
  exists_dec (by cases nd <;> decide +kernel)

/-- A slice that names a PPS stored as a null pointer: `bitstream_parser_state->pps[0];` is enough to store one. -/
example (nd : Bool) : run nd (parseSliceHeaderRaw { pps := fun k => if k = 0 then some none else none } 0 1)
    ⟨Buf.start handmadeSlice, 0⟩ = .bad .nullDeref :=
  (C80_null_pointers nd (Buf.start_wf (by decide)) 0 (first_mb := 0) (slice_type := 7) (pps_id := 0)
    (r := [false, false, false, false, true, true, true]) (by decide) (by decide) (by decide) (by decide +kernel) 0 1
    (fun _ _ h => by cases h) (fun k p h => by dsimp only at h; split at h <;> cases h) .nullDeref).mpr ⟨rfl, Or.inl rfl⟩

example : ¬ UsableDepth 357913933 ∧ ¬ UsableRate 4294967295 := by
  unfold UsableDepth UsableRate; omega

end H264.Props
