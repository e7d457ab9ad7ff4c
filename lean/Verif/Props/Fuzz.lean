import Verif.Props.Handmade
import Verif.Model.Fuzz

/-
C81: no fuzz target can find a fault that the model can express, on any input.
-/

namespace H264.Props
open H264 H264.Spec Prog

theorem fuzzState_usable : fuzzState.Usable := by
  refine ⟨?_, ?_, ?_, ?_⟩ <;> intro k s h <;> dsimp only [fuzzState] at h <;> split at h <;> cases h
  · exact Or.inl (by decide)
  · exact (by decide : 0 < 2 ^ 32 - 1)
  · exact (by decide : 0 < 2 ^ 32 - 1)
  · exact (by decide : 0 < 2 ^ 32 - 1)

theorem fuzzState3_usable : fuzzState3.Usable := by
  refine ⟨?_, ?_, ?_, ?_⟩ <;> intro k s h <;> dsimp only [fuzzState3] at h <;> split at h <;> cases h
  · exact Or.inl (by decide)
  · exact (by decide : 0 < 2 ^ 32 - 1)
  · exact (by decide : 4 < 2 ^ 32 - 1)
  · exact (by decide : 0 < 2 ^ 32 - 1)

theorem fuzzStateExt_usable : fuzzStateExt.Usable := by
  refine ⟨?_, ?_, ?_, ?_⟩ <;> intro k s h <;> dsimp only [fuzzStateExt] at h
  · split at h <;> cases h
    exact Or.inl (by decide)
  all_goals
    split at h
    · cases h; exact (by decide : 0 < 2 ^ 32 - 1)
    · split at h <;> cases h
      exact (by decide : 0 < 2 ^ 32 - 1)

theorem empty_usable : ({} : Store).Usable := C80_reachable .empty

/-- The common end of the targets: one call, then the rest. -/
theorem fuzz_step {α : Type} {x : Res (α × Nat)} (h : ∃ r, x = .val r) {f : α × Nat → Res (Nat × Nat)}
    (hf : ∀ a c, ∃ c', f (a, c) = .val (0, c')) : ∃ c', (x >>= f) = .val (0, c') := by
  obtain ⟨⟨a, c⟩, rfl⟩ := h
  exact hf a c

theorem fuzz_step3 {α σ : Type} {I : σ → Prop} {x : Res (α × σ × Nat)} (h : ∃ a s c, x = .val (a, s, c) ∧ I s)
    {f : α × σ × Nat → Res (Nat × Nat)} (hf : ∀ a s c, ∃ c', f (a, s, c) = .val (0, c')) : ∃ c', (x >>= f) = .val (0, c') := by
  obtain ⟨a, s, c, rfl, _⟩ := h
  exact hf a s c

theorem fuzz_end (c : Nat) : ∃ c', (pure (0, c) : Res (Nat × Nat)) = .val (0, c') := ⟨c, rfl⟩

section
variable {nd : Bool} {data : List UInt8} (hl : data.length < 2 ^ 61) (hf : nd = false → data.length < 2 ^ 32)
include hl hf

omit hl hf in
theorem fuzzHelpersAt_ok {b : Buf} (hb : b.WF) (c : Nat) : ∃ c', fuzzHelpersAt nd b c = .val (0, c') := by
  unfold fuzzHelpersAt
  obtain ⟨x1, s1, e1, w1⟩ := safe_good nd (p := aligned >>= fun _ => moreRbspData) (Safe.bind Safe.aligned (fun _ => safe_more))
    (s := ⟨b, c⟩) hb
  obtain ⟨x2, s2, e2, _⟩ := safe_good nd safe_trailing w1
  dsimp only
  rw [e1, Res.val_bind]
  dsimp only
  rw [e2, Res.val_bind]
  exact ⟨_, rfl⟩

theorem fuzzHelpers_ok (c : Nat) : ∃ c', fuzzHelpers nd data c = .val (0, c') := by
  have hfit : Fits nd data.length := fits_of hl hf (Nat.le_refl _)
  have hw : (Buf.start data).WF := Buf.start_wf (by omega)
  unfold fuzzHelpers
  rw [Buf.new_eq hfit, Res.val_bind]
  cases data with
  | nil => exact fuzzHelpersAt_ok hw c
  | cons x xs =>
    dsimp only
    split
    · rw [Buf.readBits_eq hw, Res.val_bind]
      split
      · exact fuzzHelpersAt_ok hw c
      · exact fuzzHelpersAt_ok (hw.adv (by omega)) c
    · exact fuzzHelpersAt_ok hw c

theorem fuzzUnescape_ok (c : Nat) : ∃ c', fuzzUnescape nd data c = .val (0, c') := by
  unfold fuzzUnescape
  have hs := strip_length data
  rw [unescapeRbsp_eq (by omega) (by have : 2 ^ 61 ≤ maxVector := by decide
                                     omega), Res.val_bind, List.drop_zero, List.take_length]
  split
  · rw [Buf.new_eq (fits_of hl hf hs), Res.val_bind, Buf.readBits_eq (Buf.start_wf (by omega)), Res.val_bind]
    exact fuzzHelpers_ok hl hf c
  · exact fuzzHelpers_ok hl hf c

/-- C81: every fuzz target returns 0, whatever the input. -/
theorem C81_targets (c : Nat) : ∀ t ∈ fuzzTargets nd data c, ∃ c', t = .val (0, c') := by
  have h : 0 + data.length ≤ data.length := by omega
  have hd := fun c {α : Type} {p : Prog α} (hp : Safe p) => progData_safe (nd := nd) (data := data) (off := 0) (len := data.length)
    h hl hf c hp
  have hn := fun c => usable_invariant.nalUnit (nd := nd) (opts := { add_checksum := true }) (data := data) (off := 0)
    (len := data.length) h hl hf empty_usable c
  have hr := fun c {σ : Store} (hσ : σ.Usable) => C80_units (nd := nd) h hl hf hσ c { add_checksum := true } {} 3
  have hs := fun c {σ : Store} (hσ : σ.Usable) ref type hh => C80_slices (nd := nd) h hl hf hσ c ref type hh
  intro t ht
  simp only [fuzzTargets, List.mem_cons, List.not_mem_nil, or_false] at ht
  rcases ht with rfl | rfl | rfl | rfl | rfl | rfl | rfl | rfl | rfl | rfl | rfl | rfl | rfl | rfl | rfl | rfl | rfl | rfl | rfl |
    rfl | rfl | rfl | rfl | rfl | rfl
  · unfold fuzzBitstream
    exact fuzz_step3 (C80_streams hl hf empty_usable _ c).1 (fun _ _ c => fuzz_end c)
  · exact fuzzUnescape_ok hl hf c
  · exact ⟨c, rfl⟩
  · unfold fuzzDecRefPicMarking parseDecRefPicMarkingData
    exact fuzz_step (hd c (safe_decRefPicMarking 1)) (fun _ c => fuzz_step (hd c (safe_decRefPicMarking 0)) (fun _ c => fuzz_end c))
  · unfold fuzzHrd parseHrdData
    exact fuzz_step (hd c safe_hrd) (fun _ c => fuzz_end c)
  · unfold fuzzNalUnitHeader parseNalHeaderData
    exact fuzz_step (hd c safe_nalHeader) (fun _ c => fuzz_end c)
  · unfold fuzzSvcHeaderExt parseSvcHeaderExtData
    exact fuzz_step (hd c safe_svcHeaderExt) (fun _ c => fuzz_end c)
  · unfold fuzzNalUnit
    exact fuzz_step3 (hn c) (fun _ _ c => fuzz_end c)
  · unfold fuzzPps parsePpsData
    exact fuzz_step (hd c (safe_pps 1)) (fun _ c => fuzz_end c)
  · unfold fuzzPredWeightTable parsePredWeightTableData
    exact fuzz_step (hd c (safe_predWeightTable 1 5 0 0)) (fun _ c => fuzz_step (hd c (safe_predWeightTable 1 5 12 0))
      (fun _ c => fuzz_end c))
  · unfold fuzzPrefix parsePrefixRbspData
    exact fuzz_step (hd c (safe_prefixRbsp 1 2 1 1)) (fun _ c => fuzz_step3 (hn c) (fun _ _ c => fuzz_end c))
  · unfold fuzzRefPicListMod parseRefPicListModData
    exact fuzz_step (hd c (safe_refPicListMod 5)) (fun _ c => fuzz_end c)
  · unfold fuzzRtpFuA
    exact fuzz_step3 (hr c fuzzState_usable).2.2.2.2.2 (fun _ _ c => fuzz_end c)
  · unfold fuzzRtp
    exact fuzz_step3 (hr c empty_usable).2.2.1 (fun _ _ c => fuzz_end c)
  · unfold fuzzRtpSingle
    exact fuzz_step3 (hr c empty_usable).2.2.2.1 (fun _ _ c => fuzz_end c)
  · unfold fuzzRtpStapA
    exact fuzz_step3 (hr c empty_usable).2.2.2.2.1 (fun _ _ c => fuzz_end c)
  · unfold fuzzScalHeader
    exact fuzz_step (hs c fuzzState_usable 0 0 _).2.2.1 (fun _ c => fuzz_end c)
  · unfold fuzzSliceHeader
    exact fuzz_step (hs c fuzzState_usable 3 5 {}).1 (fun _ c => fuzz_step (hs c fuzzState_usable 2 1 {}).1
      (fun _ c => fuzz_step (hs c fuzzState3_usable 2 1 {}).1 (fun _ c => fuzz_end c)))
  · unfold fuzzSliceLayerExt
    exact fuzz_step (hs c fuzzStateExt_usable 0 0 _).2.2.2 (fun _ c => fuzz_end c)
  · unfold fuzzSliceLayer
    exact fuzz_step (hs c fuzzState_usable 3 5 {}).2.1 (fun _ c => fuzz_step (hs c fuzzState_usable 2 1 {}).2.1 (fun _ c => fuzz_end c))
  · unfold fuzzSpsExtension parseSpsExtensionData
    exact fuzz_step (hd c safe_spsExt) (fun _ c => fuzz_end c)
  · unfold fuzzSps parseSpsRbspData
    exact fuzz_step (hd c safe_sps) (fun _ c => fuzz_end c)
  · unfold fuzzSpsSvcExt parseSpsSvcExtData
    exact fuzz_step (hd c (safe_spsSvcExt 0)) (fun _ c => fuzz_step (hd c (safe_spsSvcExt 1)) (fun _ c => fuzz_end c))
  · unfold fuzzSubsetSps parseSubsetSpsData
    exact fuzz_step (hd c safe_subsetSps) (fun _ c => fuzz_end c)
  · unfold fuzzVui parseVuiData
    exact fuzz_step (hd c safe_vui) (fun _ c => fuzz_end c)

omit hl hf in
/-- C81: the target for slice headers in scalable extension never gets as far as one: its state has no subset SPS, so that the parser
returns null at once, whatever the input. -/
theorem C81_scalable_target_blind {off len : Nat} (h : off + len ≤ data.length) (hl : data.length < 2 ^ 61)
    (hf : nd = false → len < 2 ^ 32) (hd : NalHeader) (c : Nat) :
    ∃ c', parseScalHeaderData nd data off len hd fuzzState c = .val (none, c') := by
  obtain ⟨⟨x, c'⟩, hx⟩ := (C80_slices h hl hf fuzzState_usable c 0 0 hd).2.2.1
  cases x with
  | none => exact ⟨c', hx⟩
  | some a =>
    exfalso
    unfold parseScalHeaderData at hx
    rw [progData_eq _ h hl hf] at hx
    have hw : (Buf.start (strip ((data.drop off).take len))).WF := Buf.start_wf (by
      have := strip_length ((data.drop off).take len)
      rw [List.length_take] at this
      omega)
    rw [run_eq nd _ hw] at hx
    cases hr : runL nd (parseScalHeader fuzzState hd) ⟨(Buf.start (strip ((data.drop off).take len))).rem, c⟩ with
    | ok a s =>
      unfold parseScalHeader at hr
      rw [runL_bind_ok] at hr
      obtain ⟨x, s1, _, h2⟩ := hr
      have hs : ∀ k, fuzzState.subset_sps k = none := fun _ => rfl
      split at h2
      · cases h2
      · rw [hs] at h2
        cases h2
    | null s => rw [hr] at hx; cases hx
    | bad e => rw [hr] at hx; cases hx

end

/-! ### Examples -/

example (nd : Bool) (data : List UInt8) (c : Nat) : (fuzzTargets nd data c).length = 25 := rfl

def exFuzz : List UInt8 := [0x88, 0x82, 0x06, 0x78, 0x8c, 0x50, 0x00, 0x1c]

/-- A slice of an IDR picture (from test/h264_slice_header_parser_unittest.cc:30) that the first part of the target for slice headers parses, and so do the others. -/
example (nd : Bool) : (∃ r, parseSliceHeaderData nd exFuzz 0 8 3 5 fuzzState 0 = .val r ∧ r.1.isSome = true) ∧
    ∃ c, fuzzSliceHeader nd exFuzz 0 = .val (0, c) :=
  ⟨exists_dec (by cases nd <;> decide +kernel), C81_targets (nd := nd) (data := exFuzz) (by decide) (by intro; decide) 0 _ (by simp only [fuzzTargets, List.mem_cons, true_or, or_true])⟩

/-- The state of the target for slice layer extensions, unlike the one above, lets it parse a slice header in scalable extension. -/
example (nd : Bool) : ∃ r, parseSliceLayerExtData nd [0xb4, 0x04, 0x5f, 0xc0, 0xc4, 0x42, 0x00, 0x04] 0 8 fuzzHeaderExt fuzzStateExt 0 =
    .val r ∧ (r.1.map fun x => x.slice_header_in_scalable_extension.isSome) = some true :=
  exists_dec (by cases nd <;> decide +kernel)

end H264.Props
