import Verif.Work

/-
How much work each parser does.
-/

namespace H264
open Prog

theorem lin_nalHeader : Lin 0 parseNalHeader := by
  unfold parseNalHeader parseExtFlags parseExtBody parseSvcHeaderExt
  linear
theorem lin_hrd : Lin 0 parseHrd := by
  unfold parseHrd parseHrdEntry
  linear
theorem lin_vui : Lin 0 parseVui := by
  unfold parseVui parseAspectRatio parseSar parseVideoSignal parseColour parseChromaLoc parseTiming parseOptHrd parseRestriction
  have := lin_hrd
  linear
theorem linz_ueIn (lo hi : Nat) : LinZ 0 (Prog.ueIn lo hi) := by
  refine LinZ.bind (b := 0) LinZ.ue (fun _ => ?_)
  linear
theorem linz_spsTail (h : SpsHead) : LinZ 0 (parseSpsTail h) := by
  unfold parseSpsTail
  refine LinZ.bind (b := 0) (linz_ueIn _ _) (fun _ => ?_)
  unfold parsePoc parseCrop parseOptVui
  have := lin_vui
  linear
theorem lin_spsData : Lin 408 parseSpsData := by
  unfold parseSpsData
  refine Lin.bind0 (by unfold parseSpsHead parseChromaInfo; linear) (fun h => ?_)
  refine SLin.bind (a := 408) (b := 0) ?_ (fun s => LinZ.bind (b := 0) (linz_spsTail h) (fun _ => Lin.pure _))
  unfold Prog.opt
  by_cases hm : h.seq_scaling_matrix_present_flag ≠ 0
  · rw [if_pos hm]
    intro nd s
    have h1 := slin_scalingLists (if h.chroma_format_idc ≠ 3 then 8 else 12) 0 {} (by split <;> omega) nd s
    have h2 : 34 * (if h.chroma_format_idc ≠ 3 then 8 else 12) ≤ 408 := by split <;> omega
    revert h1
    generalize (if h.chroma_format_idc ≠ 3 then 8 else 12) = n at *
    generalize scalingLists n 0 {} = q
    cases runL nd q s <;> dsimp only <;> intro <;> omega
  · rw [if_neg hm]; exact ((Lin.pure _).mono (by omega)).slin
theorem lin_sps : Lin 409 parseSps := by
  unfold parseSps
  exact Lin.bind lin_spsData (fun _ => Lin.bind (b := 0) lin_trailing (fun _ => Lin.pure _))

theorem lin_ppsHead : Lin 0 parsePpsHead := by
  unfold parsePpsHead parseSliceGroups parseTopLeftBottomRight
  linear
theorem lin_ppsExt (cf : Nat) : Lin 408 (parsePpsExt cf) := by
  unfold parsePpsExt
  intro nd s
  rw [runL_bind, workL_bind]
  have h1 := LinB.u 1 nd s
  have hlt : ∀ f t, runL nd (Prog.u 1) s = .ok f t → f ≤ 1 := by
    intro f t h
    rw [runL_u] at h
    by_cases hc : 1 = 0 ∨ 1 > 32 ∨ 1 > s.rem.length
    · rw [if_pos hc] at h; cases h
    · rw [if_neg hc] at h
      obtain ⟨rfl, -⟩ := Out.ok.inj h
      have := bitsVal_lt (s.rem.take 1)
      have h2 : (s.rem.take 1).length ≤ 1 := by rw [List.length_take]; omega
      have h3 : (2 : Nat) ^ (s.rem.take 1).length ≤ 2 ^ 1 := Nat.pow_le_pow_right (by omega) h2
      omega
  revert h1
  cases hr : runL nd (Prog.u 1) s with
  | null t => simp only [Out.bind]; intro; omega
  | bad e => simp only [Out.bind]; intro; omega
  | ok f t =>
    have hf := hlt f t hr
    have hle := runL_le hr
    intro h1
    simp only [Out.bind]
    have h2 : Lin 408 (do
        let m ← Prog.u 1
        let s ← opt (m ≠ 0) {} (scalingLists (6 + (if cf ≠ 3 then 2 else 6) * f) 0 {})
        let q ← se
        pure (f, m, s, q) : Prog (Nat × Nat × Scal × Int)) := by
      refine Lin.bind0 (Lin.u _) (fun m => ?_)
      refine SLin.bind (a := 408) (b := 0) ?_ (fun s => LinZ.bind (b := 0) LinZ.se (fun _ => Lin.pure _))
      unfold Prog.opt
      by_cases hm : m ≠ 0
      · rw [if_pos hm]
        have hn : 6 + (if cf ≠ 3 then 2 else 6) * f ≤ 12 := by
          obtain rfl | rfl : f = 0 ∨ f = 1 := by omega
          · omega
          · split <;> omega
        generalize 6 + (if cf ≠ 3 then 2 else 6) * f = n at *
        intro nd s
        have h1 := slin_scalingLists n 0 {} (by omega) nd s
        revert h1
        generalize scalingLists n 0 {} = q
        cases runL nd q s <;> dsimp only <;> intro <;> omega
      · rw [if_neg hm]; exact ((Lin.pure _).mono (by omega)).slin
    have h3 := h2 nd t
    revert h3
    generalize (do
        let m ← Prog.u 1
        let s ← opt (m ≠ 0) {} (scalingLists (6 + (if cf ≠ 3 then 2 else 6) * f) 0 {})
        let q ← se
        pure (f, m, s, q) : Prog (Nat × Nat × Scal × Int)) = q
    cases runL nd q t <;> dsimp only at h1 ⊢ <;> intro <;> omega
theorem lin_pps (cf : Nat) : Lin 410 (parsePps cf) := by
  unfold parsePps
  exact Lin.bind0 lin_ppsHead (fun _ => (Lin.bind lin_more (fun _ => Lin.bind (Lin.opt fun _ => lin_ppsExt cf)
    (fun _ => Lin.bind (b := 0) lin_trailing (fun _ => Lin.pure _)))).mono (by omega))

theorem lin_subset : Lin 411 parseSubsetSps := by
  unfold parseSubsetSps
  refine (Lin.bind lin_spsData (fun d => Lin.bind (a := 0) (b := 2) ?_ (fun e => Lin.bind (a := 1) (b := 1) ?_
    (fun _ => Lin.bind (b := 0) lin_trailing (fun _ => Lin.pure _))))).mono (by omega)
  · unfold parseSubsetExt parseSpsSvcExt parseRefChroma parseFourSe
    linear
  · unfold parseExt2
    exact Lin.bind0 (Lin.u _) (fun f => Lin.bind (b := 0) (Lin.opt fun _ => lin_ext2Loop) (fun _ => Lin.pure _))

theorem lin_spsExt : Lin 1 parseSpsExt := by
  unfold parseSpsExt parseSpsExtData parseAlpha
  refine Lin.bind0 (by linear) (fun _ => Lin.bind (b := 0) lin_trailing (fun _ => Lin.pure _))

theorem lin_refPicListMod (t : Nat) : Lin 0 (parseRefPicListMod t) := by
  have h : Lin 0 parseModOp.loop := Lin.loop (by unfold parseModOp; linear)
  unfold parseRefPicListMod parseModList
  linear
theorem lin_decRefPicMarking (i : Nat) : Lin 0 (parseDecRefPicMarking i) := by
  have h : Lin 0 parseMmco.loop := Lin.loop (by unfold parseMmco parseMmcoBody; linear)
  unfold parseDecRefPicMarking
  linear
theorem lin_predWeightTable (a b c d : Nat) : Lin 0 (parsePredWeightTable a b c d) := by
  unfold parsePredWeightTable parseWeight parseLumaWeight parseChromaWeight
  linear
theorem lin_sliceStart : Lin 0 parseSliceStart := by unfold parseSliceStart; linear
theorem lin_fieldPic (a : Nat) : Lin 0 (parseFieldPic a) := by unfold parseFieldPic; linear
theorem lin_poc0 (a b c d : Nat) : Lin 0 (parsePoc0 a b c d) := by unfold parsePoc0; linear
theorem lin_poc1 (a b c d : Nat) : Lin 0 (parsePoc1 a b c d) := by unfold parsePoc1; linear
theorem lin_numRef (a b c : Nat) : Lin 0 (parseNumRef a b c) := by unfold parseNumRef; linear
theorem lin_deblocking (a b : Nat) : Lin 0 (parseDeblocking a b) := by unfold parseDeblocking; linear
theorem lin_changeCycle (s : SpsData) (p : Pps) : Lin 0 (parseChangeCycle s p) := by unfold parseChangeCycle; linear
theorem lin_qpDelta (a : Nat) : Lin 0 (parseQpDelta a) := by unfold parseQpDelta; linear
theorem lin_switching (a : Nat) : Lin 0 (parseSwitching a) := by unfold parseSwitching; linear
macro_rules | `(tactic| lin_step) => `(tactic| with_reducible exact lin_refPicListMod _)
macro_rules | `(tactic| lin_step) => `(tactic| with_reducible exact lin_decRefPicMarking _)
macro_rules | `(tactic| lin_step) => `(tactic| with_reducible exact lin_predWeightTable _ _ _ _)
macro_rules | `(tactic| lin_step) => `(tactic| with_reducible exact lin_poc0 _ _ _ _)
macro_rules | `(tactic| lin_step) => `(tactic| with_reducible exact lin_poc1 _ _ _ _)
macro_rules | `(tactic| lin_step) => `(tactic| with_reducible exact lin_numRef _ _ _)
macro_rules | `(tactic| lin_step) => `(tactic| with_reducible exact lin_deblocking _ _)
macro_rules | `(tactic| lin_step) => `(tactic| with_reducible exact lin_changeCycle _ _)
macro_rules | `(tactic| lin_step) => `(tactic| with_reducible exact lin_fieldPic _)
macro_rules | `(tactic| lin_step) => `(tactic| with_reducible exact lin_qpDelta _)
macro_rules | `(tactic| lin_step) => `(tactic| with_reducible exact lin_switching _)
macro_rules | `(tactic| lin_step) => `(tactic| with_reducible exact lin_sliceStart)

theorem lin_sliceHeader (σ : Store) (a b : Nat) : Lin 0 (parseSliceHeader σ a b) := by
  unfold parseSliceHeader
  refine Lin.bind0 lin_sliceStart (fun x => ?_)
  cases σ.pps x.2.2 with
  | none => exact .null
  | some p =>
    dsimp only
    cases σ.sps p.seq_parameter_set_id with
    | none => exact .null
    | some s =>
      dsimp only
      unfold parseSliceBody parseSliceMod
      linear

theorem lin_scalHeader (σ : Store) (h : NalHeader) : Lin 0 (parseScalHeader σ h) := by
  unfold parseScalHeader
  refine Lin.bind0 lin_sliceStart (fun x => ?_)
  cases σ.pps x.2.2 with
  | none => exact .null
  | some p =>
    dsimp only
    cases σ.subset_sps p.seq_parameter_set_id with
    | none => exact .null
    | some s =>
      dsimp only
      cases s.seq_parameter_set_svc_extension with
      | none => exact .null
      | some e =>
        dsimp only
        refine Lin.bind0 (by linear) (fun _ => Lin.bind0 (by linear) (fun _ => Lin.bind0 (by linear) (fun _ => ?_)))
        cases h.svc_extension with
        | none => exact .null
        | some n =>
          dsimp only
          unfold parseScalBody parseScalPic parseScalRef parseScalWeights parseStoreRef parseScalQp parseScalLayer parseLayerDeblocking
            parseScalPred parseModes parseAdaptive parseScan parseRefChroma parseFourSe
          linear

theorem lin_prefix (a b c d : Nat) : Lin 3 (parsePrefixRbsp a b c d) := by
  have h : Lin 2 parsePrefixExtData := by
    unfold parsePrefixExtData
    exact Lin.bind lin_ext2Loop (fun _ => Lin.bind (b := 0) lin_trailing (fun _ => Lin.pure _))
  have h2 : Lin 3 parsePrefixExt := by
    unfold parsePrefixExt
    refine Lin.bind0 (Lin.u _) (fun f => Lin.ite (fun _ => ?_) (fun _ => ?_))
    · exact (Lin.bind (b := 0) h (fun _ => Lin.pure _)).mono (by omega)
    · exact Lin.bind lin_more (fun _ => Lin.ite (fun _ => Lin.bind (b := 0) h (fun _ => Lin.pure _))
        (fun _ => (Lin.pure _).mono (by omega)))
  have h3 : ∀ a b c, Lin 3 (parsePrefixSvc a b c) := by
    intro a b c
    unfold parsePrefixSvc
    refine Lin.ite (fun _ => Lin.bind0 (Lin.u _) (fun f => Lin.ite (fun _ => ?_) (fun _ => ?_))) (fun _ => (Lin.pure _).mono (by omega))
    · exact Lin.bind0 Lin.unimpl (fun _ => Lin.null.mono (by omega))
    · exact Lin.bind (b := 0) h2 (fun _ => Lin.pure _)
  unfold parsePrefixRbsp
  exact Lin.bind (b := 0) (Lin.opt fun _ => Lin.bind (b := 0) (h3 _ _ _) (fun _ => Lin.pure _)) (fun _ => Lin.pure _)

theorem lin_sliceLayer (σ : Store) (a b : Nat) : Lin 0 (parseSliceLayer σ a b) := by
  unfold parseSliceLayer
  have := lin_sliceHeader σ a b
  linear

theorem lina_payload (σ : Store) (h : NalHeader) : LinA 414 (parsePayload σ h) := by
  unfold parsePayload
  refine LinA.ite (fun _ => ?_) fun _ => LinA.ite (fun _ => ?_) fun _ => LinA.ite (fun _ => ?_) fun _ => LinA.ite (fun _ => ?_)
    fun _ => LinA.ite (fun _ => ?_) fun _ => LinA.ite (fun _ => ?_) fun _ => ?_
  · exact LinA.map ((LinA.of (lin_sliceLayer _ _ _)).attempt.mono (by omega)) _
  · exact LinA.map ((LinA.of lin_sps).attempt.mono (by omega)) _
  · exact LinA.map ((LinA.of (lin_pps 1)).attempt.mono (by omega)) _
  · refine LinA.map ?_ _
    unfold parsePrefixPayload
    refine LinA.ite (fun _ => ?_) (fun _ => (LinA.of (Lin.pure _)).mono (by omega))
    cases h.svc_extension with
    | none => exact (LinA.of (Lin.pure _)).mono (by omega)
    | some e => exact (LinA.of (lin_prefix _ _ _ _)).attempt.mono (by omega)
  · exact LinA.map ((LinA.of lin_subset).attempt.mono (by omega)) _
  · refine LinA.map (LinA.attempt ?_) _
    unfold parseSliceLayerExt
    dsimp only
    refine LinA.ite (fun _ => ?_) fun _ => LinA.ite (fun _ => ?_) fun _ => ?_
    · exact LinA.map ((LinA.of (lin_scalHeader _ _)).attempt.mono (by omega)) _
    · exact (LinA.of (Lin.pure _)).mono (by omega)
    · exact LinA.map ((LinA.of (lin_sliceHeader _ _ _)).mono (by omega)) _
  · exact (LinA.of (Lin.pure _)).mono (by omega)

theorem lina_single (σ : Store) : LinA 414 (parseRtpSingle σ) := by
  unfold parseRtpSingle
  exact LinA.bind (a := 0) (b := 411) lin_nalHeader (fun h => LinA.map (lina_payload σ h) _)

theorem lina_fuA (σ : Store) (r : Nat) : LinA 414 (parseRtpFuA σ r) := by
  unfold parseRtpFuA
  refine LinA.bind (a := 0) (b := 411) lin_nalHeader (fun h => ?_)
  refine LinA.bind (a := 0) (b := 411) (Lin.u _) (fun s => ?_)
  refine LinA.bind (a := 0) (b := 411) (Lin.u _) (fun s => ?_)
  refine LinA.bind (a := 0) (b := 411) (Lin.u _) (fun s => ?_)
  refine LinA.bind (a := 0) (b := 411) (Lin.u _) (fun s => ?_)
  refine LinA.ite (fun _ => (LinA.of (Lin.pure _)).mono (by omega)) (fun _ => ?_)
  unfold parsePayloadRT
  exact LinA.map (lina_payload σ _) _

end H264
