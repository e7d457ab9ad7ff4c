import Verif.Codecs.Subset
import Verif.Model.Scalable
import Verif.Spec.Syntax7

/-
Codec lemmas for the slice header in scalable extension parser.
-/

namespace H264
open Prog

theorem codec_scalPic {x : ScalCtx} (hc : Ctx x.s x.p) (hi : x.n.idr_flag < 2) (cp fn : Nat) (fp : Nat × Nat) :
    Codec (parseScalPic x.s x.p x.n cp fn fp)
      (fun h => encIf (x.n.idr_flag = 1) (encUE h.idr_pic_id) ++ (
        encIf (x.s.pic_order_cnt_type = 0)
          (encU (x.s.log2_max_pic_order_cnt_lsb_minus4 + 4) h.pic_order_cnt_lsb ++
           encIf (x.p.bottom_field_pic_order_in_frame_present_flag = 1 ∧ fp.1 = 0)
             (encSE h.delta_pic_order_cnt_bottom)) ++ (
        encIf (x.s.pic_order_cnt_type = 1 ∧ x.s.delta_pic_order_always_zero_flag = 0)
          (h.delta_pic_order_cnt.flatMap encSE) ++
        encIf (x.p.redundant_pic_cnt_present_flag = 1) (encUE h.redundant_pic_cnt))))
      (fun h => (h.colour_plane_id = cp ∧ h.frame_num = fn ∧ h.field_pic_flag = fp.1 ∧ h.bottom_field_flag = fp.2) ∧
        (if x.n.idr_flag = 1 then h.idr_pic_id ≤ 65535 else h.idr_pic_id = 0) ∧
        (if x.s.pic_order_cnt_type = 0
         then h.pic_order_cnt_lsb < 2 ^ (x.s.log2_max_pic_order_cnt_lsb_minus4 + 4) ∧
           (if x.p.bottom_field_pic_order_in_frame_present_flag = 1 ∧ fp.1 = 0 then seRange h.delta_pic_order_cnt_bottom
            else h.delta_pic_order_cnt_bottom = 0)
         else h.pic_order_cnt_lsb = 0 ∧ h.delta_pic_order_cnt_bottom = 0) ∧
        (h.delta_pic_order_cnt.length =
          (if x.s.pic_order_cnt_type = 1 ∧ x.s.delta_pic_order_always_zero_flag = 0
           then (if x.p.bottom_field_pic_order_in_frame_present_flag = 1 ∧ fp.1 = 0 then 2 else 1) else 0) ∧
          ∀ v ∈ h.delta_pic_order_cnt, seRange v) ∧
        (if x.p.redundant_pic_cnt_present_flag = 1 then h.redundant_pic_cnt ≤ 127 else h.redundant_pic_cnt = 0)) := by
  unfold parseScalPic
  refine Codec.congr (
    rd ScalPic.idr_pic_id ← Codec.optF hi (fun _ => Codec.ueIn (by decide));
    rd (fun h : ScalPic => (h.pic_order_cnt_lsb, h.delta_pic_order_cnt_bottom)) ← codec_poc0 hc.lsb hc.bottom;
    rd ScalPic.delta_pic_order_cnt ← codec_poc1 hc.bottom;
    rd ScalPic.redundant_pic_cnt ← Codec.optF hc.redundant (fun _ => Codec.ueIn (by decide));
    Codec.ret _) ?_ ?_
  · intro h
    simp only [Nat.zero_le, true_and, Prod.mk.injEq]
    constructor
    · rintro ⟨k1, k2, k3, k4, k5⟩
      refine ⟨?_, k1, k2, k3, k4⟩
      refine ⟨?_, ?_, ?_, ?_⟩ <;> rw [k5]
    · rintro ⟨⟨rfl, rfl, e3, e4⟩, k1, k2, k3, k4⟩
      refine ⟨k1, k2, k3, k4, ?_⟩
      rw [← e3, ← e4]
  · intro h _
    simp only [List.append_nil]

theorem codec_scalWeights {cat t l0 l1 no : Nat} (ht : t ≤ 9) (hn : no < 2) : Codec (parseScalWeights cat t l0 l1 no)
    (fun x => encIf (no = 0) (encU 1 x.1) ++ encIf (no = 1 ∨ x.1 = 0) (encOpt encPredWeightTable x.2))
    (fun x => (if no = 0 then x.1 < 2 else x.1 = 0) ∧
      (if no = 1 ∨ x.1 = 0 then ∃ w, x.2 = some w ∧ w.Ok cat t l0 l1 else x.2 = none)) := by
  unfold parseScalWeights
  have hno : no ≠ 0 ↔ no = 1 := by omega
  refine Codec.congr (
    rd (fun x : Nat × Option PredWeightTable => x.1) ← Codec.optE Codec.u';
    rd (fun x : Nat × Option PredWeightTable => x.2) ← Codec.optE (Codec.some (codec_predWeightTable ht));
    Codec.ret _) ?_ ?_
  · rintro ⟨a, w⟩; simp only [hno, and_true, Nat.pow_one]
  · rintro ⟨a, w⟩ _; simp only [hno, encIf, List.append_nil]

theorem codec_storeRef {us idr : Nat} (hu : us < 2) (hi : idr < 2) : Codec (parseStoreRef us idr) (encU 1)
    (fun v => v < 2 ∧ ((us = 1 ∨ v = 1) → idr = 1)) := by
  unfold parseStoreRef
  refine Codec.congr (
    Codec.bind (fun v => v) (Codec.u' (n := 1)) (fun v _ => Codec.ite
      (fun _ => codec_unimplNull (V := fun _ : Nat => False) (e := fun _ => []))
      (fun _ => Codec.ret v))
      (by intro a b h; split at h
          · exact h.2.elim
          · exact h)) ?_ ?_
  · intro v
    constructor
    · rintro ⟨h1, h2⟩
      refine ⟨h1, fun h => ?_⟩
      split at h2
      · exact h2.2.elim
      · omega
    · rintro ⟨h1, h2⟩
      refine ⟨h1, ?_⟩
      rw [if_neg (by omega)]
  · intro v _
    split <;> simp

/-- The facts about the SVC extensions the header relies on. -/
structure SvcCtx (x : ScalCtx) : Prop where
  ctx : Ctx x.s x.p
  noInter : x.n.no_inter_layer_pred_flag < 2
  idr : x.n.idr_flag < 2
  useRef : x.n.use_ref_base_pic_flag < 2
  deblocking : x.e.inter_layer_deblocking_filter_control_present_flag < 2
  tcoeff : x.e.adaptive_tcoeff_level_prediction_flag < 2

theorem SvcCtx.mk' {x : ScalCtx} (hs : x.s.InRange) (hp : x.p.InRange) {cat : Nat} (he : x.e.Ok cat) (hn : x.n.Ok) : SvcCtx x where
  ctx := Ctx.mk' hs hp
  noInter := hn.no_inter_layer_pred_flag
  idr := hn.idr_flag
  useRef := hn.use_ref_base_pic_flag
  deblocking := he.deblocking
  tcoeff := by have := he.adaptive; split at this <;> omega

theorem svcTypes {t : Nat} (ht : t ≤ 9) : (isEP t ↔ t % 5 = 0) ∧ (notEI t ↔ t % 5 ≠ 2) := by
  unfold isEP notEI; omega

theorem codec_scalRef {x : ScalCtx} (hc : SvcCtx x) {t : Nat} (ht : t ≤ 9) :
    Codec (parseScalRef x.nal_ref_idc t (chromaArrayType x.s.toSpsHead) x.p x.e x.n) (encScalRef x t) (ScalRef.Ok x t 0 0) := by
  obtain ⟨hB, _, _⟩ := sliceTypes ht
  obtain ⟨hP, _⟩ := svcTypes ht
  have hW : ((x.p.weighted_pred_flag ≠ 0 ∧ isEP t) ∨ (x.p.weighted_bipred_idc = 1 ∧ isB t)) ↔ scalWeights x.p t := by
    unfold scalWeights
    have := hc.ctx.wp
    rw [hB, hP]; omega
  have hN : (isEP t ∨ isB t) ↔ (t % 5 = 0 ∨ t % 5 = 1) := by rw [hP, hB]
  unfold parseScalRef
  refine Codec.congr (
    rd ScalRef.direct_spatial_mv_pred_flag ← Codec.optE Codec.u';
    rd (fun h : ScalRef => (h.num_ref_idx_active_override_flag, h.num_ref_idx_l0_active_minus1,
      h.num_ref_idx_l1_active_minus1)) as nr hnr ← Codec.optE (codec_numRef ht);
    Codec.bind (fun h : ScalRef => h.ref_pic_list_modification.getD {}) (codec_refPicListMod _) (fun m _ =>
    rd (fun h : ScalRef => (h.base_pred_weight_table_flag, h.pred_weight_table)) ←
      Codec.optE (codec_scalWeights ht hc.noInter);
    Codec.bind (fun h : ScalRef => (h.dec_ref_pic_marking, h.store_ref_base_pic_flag)) (Codec.optE (
        Codec.bind (fun y : Option DecRefPicMarking × Nat => y.1.getD {}) (codec_decRefPicMarking _) (fun d _ =>
        rd (fun y : Option DecRefPicMarking × Nat => y.2) ← Codec.optE (codec_storeRef hc.useRef hc.idr);
        Codec.ret _) (by intro a b h; (repeat (replace h := And.right h)); rw [h]; rfl))) (fun d _ =>
    Codec.ret _) (by intro a b h; rw [h]))
      (by intro a b h; (repeat (replace h := And.right h)); rw [h]; rfl)) ?_ ?_
  · intro h
    simp only [hW, hN]
    simp only [hB]
    constructor
    · rintro ⟨k1, k2, k3, k4, k5, e⟩
      have e1 : h.ref_pic_list_modification = some (h.ref_pic_list_modification.getD {}) := by rw [e]; rfl
      clear e
      refine ⟨k1, ?_, ?_, ?_, ⟨_, e1, k3⟩, ?_, ?_, ?_, ?_, ?_⟩
      all_goals clear e1 k3 hW hN hB hP hc
      · split at k2 <;> simp_all
      · split at k2
        · rw [if_pos ‹_›]; replace k2 := k2.2
          split at k2
          · rw [if_pos ‹_›]; exact k2.1
          · rw [if_neg ‹_›]; exact k2.1
        · rw [if_neg ‹_›]; simp_all
      · split at k2
        · rw [if_pos ‹_›]; replace k2 := k2.2
          split at k2
          · rw [if_pos ‹_›]; exact k2.2
          · rw [if_neg ‹_›]; exact k2.2
        · rw [if_neg ‹_›]; simp_all
      · split at k4
        · replace k4 := k4.1
          split at k4
          · rw [if_pos ⟨‹_›, ‹_›⟩]; exact k4
          · rw [if_neg (fun h => absurd h.2 ‹_›)]; exact k4
        · rw [if_neg (fun h => absurd h.1 ‹_›)]; simp_all
      · split at k4
        · replace k4 := k4.2
          split at k4
          · rw [if_pos ⟨‹_›, ‹_›⟩]; exact k4
          · rw [if_neg (fun h => absurd h.2 ‹_›)]; exact k4
        · rw [if_neg (fun h => absurd h.1 ‹_›)]; simp_all
      · split at k5
        · rw [if_pos ‹_›]
          obtain ⟨a1, a2, a3⟩ := k5
          simp only [Prod.mk.injEq] at a3
          exact ⟨_, a3.1, a1⟩
        · rw [if_neg ‹_›]; simp only [Prod.mk.injEq] at k5; exact k5.1
      · split at k5
        · obtain ⟨a1, a2, a3⟩ := k5
          split at a2
          · rw [if_pos ⟨‹_›, ‹_›⟩]; exact a2.1
          · rw [if_neg (fun h => absurd h.2 ‹_›)]; exact a2
        · rw [if_neg (fun h => absurd h.1 ‹_›)]; simp only [Prod.mk.injEq] at k5; exact k5.2
      · intro r1 r2
        rw [if_pos r1] at k5
        obtain ⟨a1, a2, a3⟩ := k5
        rw [if_pos r2] at a2
        exact a2.2
    · intro r
      obtain ⟨m, hm, hm'⟩ := r.modification
      refine ⟨r.direct, ?_, ?_, ?_, ?_, ?_⟩
      · have a := r.override; have b := r.l0; have b' := r.l1
        split at a
        · rw [if_pos ‹_›] at b b' ⊢
          refine ⟨a, ?_⟩
          split
          · rw [if_pos ‹_›] at b b'; exact ⟨b, b'⟩
          · rw [if_neg ‹_›] at b b'; exact ⟨b, b'⟩
        · rw [if_neg ‹_›] at b b' ⊢
          rw [a, b, b']
      · rw [hm]; exact hm'
      · have a := r.base; have b := r.weights
        by_cases hw : scalWeights x.p t
        · rw [if_pos hw]
          simp only [hw, true_and] at a b
          exact ⟨a, b⟩
        · rw [if_neg hw]
          simp only [hw, false_and, if_false] at a b
          rw [a, b]
      · have a := r.marking; have b := r.store; have d := r.no_base_marking
        by_cases hw : x.nal_ref_idc ≠ 0
        · rw [if_pos hw] at a ⊢
          obtain ⟨mk, q1, q2⟩ := a
          rw [q1]
          refine ⟨q2, ?_, rfl⟩
          split
          · rw [if_pos ⟨hw, ‹_›⟩] at b; exact ⟨b, d hw ‹_›⟩
          · rw [if_neg (fun h => absurd h.2 ‹_›)] at b; exact b
        · rw [if_neg hw] at a ⊢
          rw [if_neg (fun h => absurd h.1 hw)] at b
          rw [a, b]
      · rw [hm]
        show _ = { h with ref_pic_list_modification := some m }
        rw [← hm]
  · intro h r
    obtain ⟨m, hm, hm'⟩ := r.modification
    have hmk : x.nal_ref_idc ≠ 0 → ∃ d, h.dec_ref_pic_marking = some d := by
      intro hr
      have := r.marking
      rw [if_pos hr] at this
      obtain ⟨d, q, _⟩ := this
      exact ⟨d, q⟩
    dsimp only at hW hN hB ⊢
    unfold encScalRef
    simp only [hW, hN]
    simp only [hB, hm, encOpt, Option.getD_some, List.append_nil, encIf, List.append_assoc]
    by_cases hr : x.nal_ref_idc ≠ 0
    · obtain ⟨d, q⟩ := hmk hr
      simp only [if_pos hr, q, Option.getD_some]
    · simp only [if_neg hr]

theorem codec_scalQp {x : ScalCtx} (hc : Ctx x.s x.p) {t : Nat} (ht : t ≤ 9) :
    Codec (parseScalQp x.s x.p t) (encScalQp x t) (ScalQp.Ok x t) := by
  obtain ⟨_, hI⟩ := svcTypes ht
  have hE : (x.p.entropy_coding_mode_flag ≠ 0 ∧ notEI t) ↔ (x.p.entropy_coding_mode_flag = 1 ∧ t % 5 ≠ 2) := by
    have := hc.entropy
    rw [hI]; omega
  unfold parseScalQp
  refine Codec.congr (
    rd ScalQp.cabac_init_idc ← Codec.optE (Codec.ueIn (by decide));
    rd ScalQp.slice_qp_delta ← Codec.se;
    rd (fun h : ScalQp => (h.disable_deblocking_filter_idc, h.slice_alpha_c0_offset_div2,
      h.slice_beta_offset_div2)) ← codec_deblocking hc.deblocking (by decide);
    rd (fun h : ScalQp => (h.pic_width_in_mbs_minus1, h.pic_height_in_map_units_minus1,
      h.slice_group_change_rate_minus1, h.slice_group_change_cycle)) ← codec_changeCycle hc.rs hc.rp;
    Codec.ret _) ?_ ?_
  · intro h
    simp only [hE, Nat.zero_le, true_and]
    constructor
    · rintro ⟨k1, k2, k3, k4, _⟩
      refine ⟨k1, k2, ?_, ?_, ?_, ?_, ?_, ?_⟩
      all_goals clear hE hI hc
      · split at k3 <;> simp_all
      · split at k3 <;> simp_all
      · split at k4 <;> simp_all
      · split at k4 <;> simp_all
      · split at k4 <;> simp_all
      · split at k4 <;> simp_all
    · intro r
      refine ⟨r.cabac_init_idc, r.slice_qp_delta, ?_, ?_, trivial⟩
      · have a := r.idc; have b := r.offsets
        split at a
        · rw [if_pos ‹_›]
          refine ⟨a, ?_⟩
          split
          · rw [if_pos ⟨‹_›, ‹_›⟩] at b; exact b
          · rw [if_neg (by omega)] at b; rw [b.1, b.2]
        · rw [if_neg ‹_›]; rw [if_neg (by omega)] at b; rw [a, b.1, b.2]
      · have a := r.cycle
        have b1 := r.width; have b2 := r.height; have b3 := r.rate
        split at a
        · rw [if_pos ‹_›] at b1 b2 b3 ⊢; exact ⟨b1, b2, b3, a⟩
        · rw [if_neg ‹_›] at b1 b2 b3 ⊢; rw [a, b1, b2, b3]
  · intro h _
    unfold encScalQp
    simp only [hE, encIf, List.append_nil, List.append_assoc]

theorem codec_layerDeblocking {f : Nat} (hf : f < 2) : Codec (parseLayerDeblocking f)
    (fun x => encIf (f = 1) (encUE x.1 ++ encIf (x.1 ≠ 1) (encSE x.2.1 ++ encSE x.2.2)))
    (fun x => if f = 1 then ueRange x.1 ∧ (if x.1 ≠ 1 then seRange x.2.1 ∧ seRange x.2.2 else x.2 = (0, 0))
      else x = (0, 0, 0)) := by
  unfold parseLayerDeblocking
  refine Codec.congr (Codec.optF hf (fun _ =>
    rd Prod.fst ← Codec.ue;
    rd Prod.snd ← Codec.optE codec_twoSe;
    Codec.ret _)) ?_ ?_
  · rintro ⟨x, y⟩; simp [ueRange]
  · rintro ⟨x, y⟩ _; simp

theorem codec_scalLayer {x : ScalCtx} (hc : SvcCtx x) :
    Codec (parseScalLayer (chromaArrayType x.s.toSpsHead) x.e) (encScalLayer x) (ScalLayer.Ok x) := by
  unfold parseScalLayer
  refine Codec.congr (
    rd ScalLayer.ref_layer_dq_id ← Codec.ue;
    rd (fun h : ScalLayer => (h.disable_inter_layer_deblocking_filter_idc, h.inter_layer_slice_alpha_c0_offset_div2,
      h.inter_layer_slice_beta_offset_div2)) ← codec_layerDeblocking hc.deblocking;
    rd ScalLayer.constrained_intra_resampling_flag ← Codec.u';
    rd (fun h : ScalLayer => ((h.ref_layer_chroma_phase_x_plus1_flag, h.ref_layer_chroma_phase_y_plus1),
      (h.scaled_ref_layer_left_offset, h.scaled_ref_layer_top_offset, h.scaled_ref_layer_right_offset,
       h.scaled_ref_layer_bottom_offset))) ← Codec.optE (
        rd Prod.fst ← codec_refChroma (chromaArrayType x.s.toSpsHead); rd Prod.snd ← codec_fourSe; Codec.ret _);
    Codec.ret _) ?_ ?_
  · intro h
    constructor
    · rintro ⟨k1, k2, k3, k4, _⟩
      refine ⟨k1, ?_, ?_, k3, ?_, ?_⟩
      · clear k1 k3 k4 hc
        split at k2
        · rw [if_pos ‹_›]; exact k2.1
        · rw [if_neg ‹_›]; simp only [Prod.mk.injEq] at k2; exact k2.1
      · clear k1 k3 k4 hc
        split at k2
        · replace k2 := k2.2
          split at k2
          · rw [if_pos ⟨‹_›, ‹_›⟩]; exact k2
          · rw [if_neg (by omega)]; simp only [Prod.mk.injEq] at k2; exact k2
        · rw [if_neg (by omega)]; simp only [Prod.mk.injEq] at k2; exact k2.2
      · dsimp only at k4
        split at k4
        · replace k4 := k4.1
          split at k4
          · rw [if_pos ⟨‹_›, ‹_›⟩]; exact k4
          · rw [if_neg (by omega)]; simpa using k4
        · rw [if_neg (by omega)]; simp only [Prod.mk.injEq] at k4; exact ⟨k4.1.1, k4.1.2⟩
      · dsimp only at k4
        split at k4
        · rw [if_pos ‹_›]; exact k4.2.1
        · rw [if_neg ‹_›]; simp only [Prod.mk.injEq] at k4; exact k4.2
    · intro r
      refine ⟨r.dq, ?_, r.resampling, ?_, rfl⟩
      · have a := r.idc; have b := r.deblocking
        split at a
        · rw [if_pos ‹_›]
          refine ⟨a, ?_⟩
          split
          · rw [if_pos ⟨‹_›, ‹_›⟩] at b; exact b
          · rw [if_neg (by omega)] at b; rw [b.1, b.2]
        · rw [if_neg ‹_›]; rw [if_neg (by omega)] at b; rw [a, b.1, b.2]
      · have h5 := r.phase; have h5' := r.offsets
        dsimp only
        split
        · rw [if_pos ‹_›] at h5'
          refine ⟨?_, h5', rfl⟩
          split
          · rw [if_pos ⟨‹_›, ‹_›⟩] at h5; exact h5
          · rw [if_neg (by omega)] at h5; rw [h5.1, h5.2]
        · rw [if_neg ‹_›] at h5'
          rw [if_neg (by omega)] at h5
          obtain ⟨a, b, d, f⟩ := h5'
          rw [h5.1, h5.2, a, b, d, f]
  · intro h _
    unfold encScalLayer
    simp only [List.append_assoc, List.append_nil]

theorem codec_adaptive : Codec parseAdaptive (fun x => encU 1 x.1 ++ encIf (x.1 = 0) (encU 1 x.2))
    (fun x => x.1 < 2 ∧ (if x.1 = 0 then x.2 < 2 else x.2 = 0)) := by
  unfold parseAdaptive
  refine Codec.congr (
    rd Prod.fst ← Codec.u';
    rd Prod.snd ← Codec.optE Codec.u';
    Codec.ret _) ?_ ?_
  · rintro ⟨x, y⟩; simp
  · rintro ⟨x, y⟩ _; simp

theorem codec_modes : Codec parseModes
    (fun x => (encU 1 x.1.1 ++ encIf (x.1.1 = 0) (encU 1 x.1.2)) ++ (
      encIf (x.1.2 = 0) (encU 1 x.2.1.1 ++ encIf (x.2.1.1 = 0) (encU 1 x.2.1.2)) ++
      (encU 1 x.2.2.1 ++ encIf (x.2.2.1 = 0) (encU 1 x.2.2.2))))
    (fun x => (x.1.1 < 2 ∧ (if x.1.1 = 0 then x.1.2 < 2 else x.1.2 = 0)) ∧
      (if x.1.2 = 0 then x.2.1.1 < 2 ∧ (if x.2.1.1 = 0 then x.2.1.2 < 2 else x.2.1.2 = 0) else x.2.1 = (0, 0)) ∧
      (x.2.2.1 < 2 ∧ (if x.2.2.1 = 0 then x.2.2.2 < 2 else x.2.2.2 = 0))) := by
  unfold parseModes
  refine Codec.congr (
    rd (fun x : (Nat × Nat) × (Nat × Nat) × (Nat × Nat) => x.1) ← codec_adaptive;
    rd (fun x : (Nat × Nat) × (Nat × Nat) × (Nat × Nat) => x.2.1) ← Codec.optE codec_adaptive;
    rd (fun x : (Nat × Nat) × (Nat × Nat) × (Nat × Nat) => x.2.2) ← codec_adaptive;
    Codec.ret _) ?_ ?_
  · rintro ⟨x, y, z⟩; simp
  · rintro ⟨x, y, z⟩ _; simp

theorem codec_scalPred {x : ScalCtx} (hc : SvcCtx x) : Codec (parseScalPred x.e) (encScalPred x) (ScalPred.Ok x) := by
  unfold parseScalPred
  refine Codec.congr (
    rd ScalPred.slice_skip_flag as sk hsk ← Codec.u';
    rd ScalPred.num_mbs_in_slice_minus1 ← Codec.optF hsk (fun _ => Codec.ue);
    rd (fun h : ScalPred => ((h.adaptive_base_mode_flag, h.default_base_mode_flag),
      (h.adaptive_motion_prediction_flag, h.default_motion_prediction_flag),
      (h.adaptive_residual_prediction_flag, h.default_residual_prediction_flag))) ← Codec.optE codec_modes;
    rd ScalPred.tcoeff_level_prediction_flag ← Codec.optF hc.tcoeff (fun _ => Codec.u');
    Codec.ret _) ?_ ?_
  · intro h
    constructor
    · rintro ⟨k1, k2, k3, k4, _⟩
      dsimp only at k3
      refine ⟨k1, k2, ?_, ?_, ?_, ?_, ?_, ?_, k4⟩
      all_goals clear k2 k4 hc
      · split at k3
        · rw [if_pos ‹_›]; exact k3.1.1
        · rw [if_neg ‹_›]; simp only [Prod.mk.injEq] at k3; exact k3.1.1
      · split at k3
        · obtain ⟨⟨a1, a2⟩, _⟩ := k3
          split at a2
          · rw [if_pos ⟨‹_›, ‹_›⟩]; exact a2
          · rw [if_neg (by omega)]; exact a2
        · simp only [Prod.mk.injEq] at k3
          rw [if_neg (by omega)]; exact k3.1.2
      · split at k3
        · obtain ⟨_, b, _⟩ := k3
          split at b
          · rw [if_pos ⟨‹_›, ‹_›⟩]; exact b.1
          · rw [if_neg (by omega)]; simp only [Prod.mk.injEq] at b; exact b.1
        · simp only [Prod.mk.injEq] at k3
          rw [if_neg (by omega)]; exact k3.2.1.1
      · split at k3
        · obtain ⟨_, b, _⟩ := k3
          split at b
          · replace b := b.2
            split at b
            · rw [if_pos ⟨‹_›, ‹_›, ‹_›⟩]; exact b
            · rw [if_neg (by omega)]; exact b
          · rw [if_neg (by omega)]; simp only [Prod.mk.injEq] at b; exact b.2
        · simp only [Prod.mk.injEq] at k3
          rw [if_neg (by omega)]; exact k3.2.1.2
      · split at k3
        · rw [if_pos ‹_›]; exact k3.2.2.1
        · rw [if_neg ‹_›]; simp only [Prod.mk.injEq] at k3; exact k3.2.2.1
      · split at k3
        · obtain ⟨_, _, a1, a2⟩ := k3
          split at a2
          · rw [if_pos ⟨‹_›, ‹_›⟩]; exact a2
          · rw [if_neg (by omega)]; exact a2
        · simp only [Prod.mk.injEq] at k3
          rw [if_neg (by omega)]; exact k3.2.2.2
    · intro r
      refine ⟨r.skip, r.mbs, ?_, r.tcoeff, rfl⟩
      have a1 := r.base; have a2 := r.default_base; have a3 := r.motion; have a4 := r.default_motion
      have a5 := r.residual; have a6 := r.default_residual
      dsimp only
      by_cases hs : h.slice_skip_flag = 0
      · simp only [hs, true_and, if_true] at a1 a2 a3 a4 a5 a6 ⊢
        refine ⟨⟨a1, a2⟩, ?_, a5, a6⟩
        split
        · rw [if_pos ‹_›] at a3
          simp only [‹h.default_base_mode_flag = 0›, true_and] at a4
          exact ⟨a3, a4⟩
        · rw [if_neg ‹_›] at a3
          rw [if_neg (by omega)] at a4
          rw [a3, a4]
      · simp only [hs, false_and, if_false] at a1 a2 a3 a4 a5 a6 ⊢
        rw [a1, a2, a3, a4, a5, a6]
  · intro h _
    unfold encScalPred
    simp only [List.append_assoc, List.append_nil]

theorem codec_scan (r k : Nat) : Codec (parseScan r k)
    (fun x => encIf (r = 0 ∧ k = 0) (encU 4 x.1 ++ encU 4 x.2))
    (fun x => if r = 0 ∧ k = 0 then x.1 < 16 ∧ x.2 < 16 else x = (0, 0)) := by
  unfold parseScan
  refine Codec.congr (Codec.optE (
    rd Prod.fst ← Codec.u';
    rd Prod.snd ← Codec.u';
    Codec.ret _)) ?_ ?_
  · rintro ⟨a, b⟩; simp
  · rintro ⟨a, b⟩ _; simp

theorem scalCopied_ok (x : ScalCtx) (c : ScalCopied) :
    c = scalCopied x.nal_ref_idc x.nal_unit_type x.s x.p x.e x.n ↔ c.Ok x := by
  constructor
  · rintro rfl
    constructor <;> rfl
  · rintro ⟨h1, h2, h3, h4, h5, h6, h7, h8, h9, h10, h11, h12, h13, h14, h15, h16, h17, h18, h19, h20, h21, h22, h23⟩
    cases c
    simp only at h1 h2 h3 h4 h5 h6 h7 h8 h9 h10 h11 h12 h13 h14 h15 h16 h17 h18 h19 h20 h21 h22 h23
    subst h1 h2 h3 h4 h5 h6 h7 h8 h9 h10 h11 h12 h13 h14 h15 h16 h17 h18 h19 h20 h21 h22 h23
    rfl

/-- The header after the first three elements, appended to the right. -/
def encScalTail (x : ScalCtx) (h : ScalHeader) : List Bool :=
  encIf (x.s.separate_colour_plane_flag = 1) (encU 2 h.pic.colour_plane_id) ++ (
  encU (x.s.log2_max_frame_num_minus4 + 4) h.pic.frame_num ++ (
  encIf (x.s.frame_mbs_only_flag = 0)
    (encU 1 h.pic.field_pic_flag ++ encIf (h.pic.field_pic_flag = 1) (encU 1 h.pic.bottom_field_flag)) ++ (
  (encIf (x.n.idr_flag = 1) (encUE h.pic.idr_pic_id) ++ (
   encIf (x.s.pic_order_cnt_type = 0)
     (encU (x.s.log2_max_pic_order_cnt_lsb_minus4 + 4) h.pic.pic_order_cnt_lsb ++
      encIf (x.p.bottom_field_pic_order_in_frame_present_flag = 1 ∧ h.pic.field_pic_flag = 0)
        (encSE h.pic.delta_pic_order_cnt_bottom)) ++ (
   encIf (x.s.pic_order_cnt_type = 1 ∧ x.s.delta_pic_order_always_zero_flag = 0)
     (h.pic.delta_pic_order_cnt.flatMap encSE) ++
   encIf (x.p.redundant_pic_cnt_present_flag = 1) (encUE h.pic.redundant_pic_cnt)))) ++ (
  encIf (x.n.quality_id = 0) (encScalRef x h.slice_type h.ref) ++ (
  encScalQp x h.slice_type h.qp ++ (
  encIf (x.n.no_inter_layer_pred_flag = 0 ∧ x.n.quality_id = 0) (encScalLayer x h.layer) ++ (
  encIf (x.n.no_inter_layer_pred_flag = 0) (encScalPred x h.pred) ++
  encIf (x.e.slice_header_restriction_flag = 0 ∧ h.pred.slice_skip_flag = 0)
    (encU 4 h.scan_idx_start ++ encU 4 h.scan_idx_end))))))))

theorem encScalHeader_eq (x : ScalCtx) (h : ScalHeader) : encScalHeader x h =
    encUE h.first_mb_in_slice ++ encUE h.slice_type ++ encUE h.pic_parameter_set_id ++ encScalTail x h := by
  unfold encScalHeader encScalTail encScalPic
  simp only [List.append_assoc]

theorem isSome_iff_ne {α : Type} (o : Option α) : (o.isSome = true) ↔ o ≠ none := by cases o <;> simp

theorem codec_scalTail {x : ScalCtx} (hc : SvcCtx x) {y : Nat × Nat × Nat}
    (h1 : y.1 ≤ 139263) (ht : y.2.1 ≤ 9) (h2 : y.2.2 ≤ 255) :
    Codec (do
        let cp ← opt (x.s.separate_colour_plane_flag = 1) 0 (u 2)
        let fn ← u (add32 x.s.log2_max_frame_num_minus4 4)
        let fp ← parseFieldPic x.s.frame_mbs_only_flag
        parseScalBody x.nal_ref_idc x.nal_unit_type x.s x.p x.e x.n y cp fn fp) (encScalTail x)
      (fun h => h.Ok x 0 0 ∧ (h.first_mb_in_slice, h.slice_type, h.pic_parameter_set_id) = y) := by
  have hcat := getChromaArrayType_eq hc.ctx.rs
  have hfr : add32 x.s.log2_max_frame_num_minus4 4 = x.s.log2_max_frame_num_minus4 + 4 :=
    add32_eq (by have := hc.ctx.frame; omega)
  unfold parseScalBody
  rw [hcat, hfr]
  refine Codec.congr (
    Codec.bind (fun h : ScalHeader => h.pic.colour_plane_id) (Codec.optE Codec.u') (fun cp _ =>
    Codec.bind (fun h : ScalHeader => h.pic.frame_num) (Codec.u' (by omega) (by have := hc.ctx.frame; omega)) (fun fn _ =>
    Codec.bind (fun h : ScalHeader => (h.pic.field_pic_flag, h.pic.bottom_field_flag)) (codec_fieldPic _) (fun fp _ =>
    rd ScalHeader.pic ← codec_scalPic hc.ctx hc.idr _ _ _;
    rd ScalHeader.ref ← Codec.optE (codec_scalRef hc ht);
    rd ScalHeader.qp ← codec_scalQp hc.ctx ht;
    rd ScalHeader.layer ← Codec.optE (codec_scalLayer hc);
    rd ScalHeader.pred ← Codec.optE (codec_scalPred hc);
    rd (fun h : ScalHeader => (h.scan_idx_start, h.scan_idx_end)) ← codec_scan _ _;
    Codec.ret _) (fun a b h => Prod.ext h.1.1.2.2.1 h.1.1.2.2.2)) (fun a b h => h.2.1.1.2.1))
      (fun a b h => h.2.2.1.1.1)) ?_ ?_
  · intro h
    obtain ⟨x1, x2, x3⟩ := y
    dsimp only at h1 ht h2
    constructor
    · rintro ⟨k1, k2, k3, ⟨_, k4, k5, k6, k7⟩, k8, k9, k10, k11, k12, e⟩
      have e0 := congrArg ScalHeader.copied e
      have e1 := congrArg ScalHeader.ChromaArrayType e
      dsimp only at e0 e1
      have e2 : h.first_mb_in_slice = x1 := by rw [e]
      have e3 : h.slice_type = x2 := by rw [e]
      have e4 : h.pic_parameter_set_id = x3 := by rw [e]
      clear e
      subst e2 e3 e4
      refine ⟨⟨(scalCopied_ok x _).mp e0, ?_, h1, ht, h2, ⟨k1, k2, ?_, ?_, k4, ?_, ?_, k6.1, k6.2, k7⟩, k8, k9, k10, k11, ?_⟩, rfl⟩
      · rw [e1]; simp only [isSome_iff_ne, and_assoc]
      · clear hc; split at k3 <;> simp_all
      · clear hc; split at k3 <;> simp_all
      · split at k5
        · rw [if_pos ‹_›]; exact k5.1
        · rw [if_neg ‹_›]; exact k5.1
      · split at k5
        · simp only [‹x.s.pic_order_cnt_type = 0›, true_and]; exact k5.2
        · rw [if_neg (fun h => absurd h.1 ‹_›)]; exact k5.2
      · split at k12
        · rw [if_pos ‹_›]; exact k12
        · rw [if_neg ‹_›]; simp only [Prod.mk.injEq] at k12; exact k12
    · rintro ⟨r, hx⟩
      simp only [Prod.mk.injEq] at hx
      obtain ⟨rfl, rfl, rfl⟩ := hx
      have q := r.pic
      refine ⟨q.colour_plane_id, q.frame_num, ?_, ⟨⟨rfl, rfl, rfl, rfl⟩, q.idr_pic_id, ?_, ⟨q.delta_length, q.delta⟩,
        q.redundant_pic_cnt⟩, r.ref, r.qp, r.layer, r.pred, ?_, ?_⟩
      · have a := q.field; have b := q.bottom
        dsimp only
        split at a
        · rw [if_pos ‹_›]
          simp only [‹x.s.frame_mbs_only_flag = 0›, true_and] at b
          exact ⟨a, b⟩
        · rw [if_neg ‹_›]
          rw [if_neg (fun h => absurd h.1 ‹_›)] at b
          rw [a, b]
      · have a := q.lsb; have b := q.delta_bottom
        split at a
        · rw [if_pos ‹_›]
          simp only [‹x.s.pic_order_cnt_type = 0›, true_and] at b
          exact ⟨a, b⟩
        · rw [if_neg ‹_›]
          rw [if_neg (fun h => absurd h.1 ‹_›)] at b
          exact ⟨a, b⟩
      · have a := r.scan
        split at a
        · rw [if_pos ‹_›]; exact a
        · rw [if_neg ‹_›, a.1, a.2]
      · have a := r.cat
        have b := (scalCopied_ok x _).mpr r.copied
        rw [← b]
        simp only [isSome_iff_ne, and_assoc]
        rw [← a]
  · rintro h ⟨r, hx⟩
    subst hx
    unfold encScalTail
    simp only [List.append_nil]

/-- The header under the stored parameter sets and the NAL unit header. -/
def encScal (σ : Store) (n : NalHeader) (h : ScalHeader) : List Bool :=
  match σ.pps h.pic_parameter_set_id with
  | none => []
  | some p =>
    match σ.subset_sps p.seq_parameter_set_id with
    | none => []
    | some ss =>
      match ss.seq_parameter_set_svc_extension, n.svc_extension with
      | some e, some x => encScalHeader ⟨n.nal_ref_idc, n.nal_unit_type, ss.seq_parameter_set_data, p, e, x⟩ h
      | _, _ => []

theorem encScal_eq {σ : Store} {n : NalHeader} {h : ScalHeader} {x : ScalCtx} (r : ScalRefers σ n h x) :
    encScal σ n h = encScalHeader x h := by
  obtain ⟨r1, ⟨ss, r2, r3, r4⟩, r5, r6, r7⟩ := r
  unfold encScal
  rw [r1]; dsimp only; rw [r2]; dsimp only; rw [r4, r5]; dsimp only
  rw [r3, ← r6, ← r7]

theorem SvcCtx.ofStore {σ : Store} (hσ : σ.Valid) {n : NalHeader} (hn : ∀ e, n.svc_extension = some e → e.Ok)
    {ref type k k' : Nat} {p : Pps} {ss : SubsetSps} {e : SpsSvcExt} {x : SvcHeaderExt} (h1 : σ.pps k = some p)
    (h2 : σ.subset_sps k' = some ss) (h3 : ss.seq_parameter_set_svc_extension = some e)
    (h4 : n.svc_extension = some x) : SvcCtx ⟨ref, type, ss.seq_parameter_set_data, p, e, x⟩ := by
  have hs := (hσ.subset_sps _ _ h2).1
  have hs2 := hs.svc
  split at hs2
  · obtain ⟨e', q1, q2⟩ := hs2
    rw [h3] at q1
    injection q1 with q1
    subst q1
    exact SvcCtx.mk' hs.sps (hσ.pps _ _ h1).1 q2 (hn _ h4)
  · rw [h3] at hs2; cases hs2

theorem codec_scalHeader {σ : Store} (hσ : σ.Valid) {n : NalHeader} (hn : ∀ e, n.svc_extension = some e → e.Ok) :
    Codec (parseScalHeader σ n) (encScal σ n) (fun h => ∃ x, ScalRefers σ n h x ∧ h.Ok x 0 0) := by
  intro nd l c h s'
  unfold parseScalHeader
  rw [runL_bind_ok]
  constructor
  · rintro ⟨y, s1, h1, h2⟩
    obtain ⟨⟨a1, a2, a3⟩, r, hl, hs⟩ := (codec_sliceStart nd l c y s1).mp h1
    subst hs
    split at h2
    · simp at h2
    · rename_i p hp
      split at h2
      · simp at h2
      · rename_i ss hss
        split at h2
        · simp at h2
        · rename_i e he
          cases hne : n.svc_extension with
          | none =>
            rw [hne] at h2
            simp only [runL_bind_ok] at h2
            obtain ⟨_, _, _, _, _, _, _, _, _, h2⟩ := h2
            simp at h2
          | some x =>
            rw [hne] at h2
            dsimp only at h2
            have hc := SvcCtx.ofStore (ref := n.nal_ref_idc) (type := n.nal_unit_type) hσ hn hp hss he hne
            obtain ⟨⟨ok, hx⟩, r', hr, hs'⟩ := (codec_scalTail hc a1 a2 a3 nd r c h s').mp h2
            subst hx
            have rf : ScalRefers σ n h ⟨n.nal_ref_idc, n.nal_unit_type, ss.seq_parameter_set_data, p, e, x⟩ :=
              ⟨hp, ⟨ss, hss, rfl, he⟩, hne, rfl, rfl⟩
            refine ⟨⟨_, rf, ok⟩, r', ?_, hs'⟩
            rw [encScal_eq rf, encScalHeader_eq, hl, hr]
            simp only [List.append_assoc]
  · rintro ⟨⟨x, rf, ok⟩, r, hl, hs'⟩
    rw [encScal_eq rf, encScalHeader_eq] at hl
    obtain ⟨r1, ⟨ss, r2, r3, r4⟩, r5, r6, r7⟩ := rf
    have hc : SvcCtx x := by
      have := SvcCtx.ofStore (ref := x.nal_ref_idc) (type := x.nal_unit_type) hσ hn r1 r2 r4 r5
      rw [r3] at this
      exact this
    refine ⟨(h.first_mb_in_slice, h.slice_type, h.pic_parameter_set_id), ⟨encScalTail x h ++ r, c⟩, ?_, ?_⟩
    · refine (codec_sliceStart nd l c _ _).mpr ⟨⟨ok.first_mb_in_slice, ok.slice_type, ok.pic_parameter_set_id⟩, _, ?_, rfl⟩
      rw [hl, List.append_assoc]
    · dsimp only
      rw [r1]
      dsimp only
      rw [r2]
      dsimp only
      rw [r4]
      dsimp only
      rw [r5, r3, ← r6, ← r7]
      exact (codec_scalTail hc ok.first_mb_in_slice ok.slice_type ok.pic_parameter_set_id nd _ c h s').mpr
        ⟨⟨ok, rfl⟩, r, rfl, hs'⟩

theorem safe_scalHeader {σ : Store} (hσ : σ.Valid) (n : NalHeader) : Safe (parseScalHeader σ n) := by
  unfold parseScalHeader
  refine Safe.bind (by unfold parseSliceStart; safe) (fun x => ?_)
  split
  · exact Safe.null
  · rename_i p hp
    split
    · exact Safe.null
    · rename_i ss hss
      have hs := (hσ.subset_sps _ _ hss).1.sps
      have hc := Ctx.mk' hs (hσ.pps _ _ hp).1
      have q2 := safe_changeCycle hc.rs hc.rp
      split
      · exact Safe.null
      · unfold parseScalBody parseScalPic parseFieldPic parsePoc0 parsePoc1 parseScalRef parseNumRef parseScalWeights
          parseStoreRef parseScalQp parseDeblocking parseScalLayer parseLayerDeblocking parseRefChroma parseFourSe
          parseScalPred parseModes parseAdaptive parseScan
        cases n.svc_extension with
        | none => safe
        | some e => safe

theorem mode_scalHeader (σ : Store) (n : NalHeader) : ModeIndep (parseScalHeader σ n) := by
  unfold parseScalHeader
  refine ModeIndep.bind (by unfold parseSliceStart; modeindep) (fun x => ?_)
  split
  · exact ModeIndep.null
  · split
    · exact ModeIndep.null
    · split
      · exact ModeIndep.null
      · unfold parseScalBody parseScalPic parseFieldPic parsePoc0 parsePoc1 parseScalRef parseNumRef parseScalWeights
          parseStoreRef parseScalQp parseDeblocking parseScalLayer parseLayerDeblocking parseRefChroma parseFourSe
          parseScalPred parseModes parseAdaptive parseScan parseChangeCycle
        cases n.svc_extension with
        | none => modeindep
        | some e => modeindep
macro_rules | `(tactic| mode_step) => `(tactic| with_reducible exact mode_scalHeader _ _)

end H264
