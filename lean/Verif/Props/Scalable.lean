import Verif.Codecs.Scalable
import Verif.Props.Slice
import Verif.Props.Subset

/-
Property C48: the slice header in scalable extension.
-/

namespace H264.Props
open H264

/-- C48: `ParseSliceHeaderInScalableExtension` returns `h` iff the PPS, the subset SPS with its SVC extension and the SVC
NAL unit header extension are there, the next bits are the G.7.3.3.4 encoding of `h` under these, and `h` is in range; it
has then consumed exactly that encoding.  Partial: where the standard takes the reference counts of a slice without
override from the PPS, the library takes 0 (the two zeros; see `C48_defaults_ignored`). -/
theorem C48_scalHeader_exact_partial (nd : Bool) {b : Buf} (hb : b.WF) (c : Nat) {σ : Store} (hσ : σ.Valid) {n : NalHeader}
    (hn : ∀ e, n.svc_extension = some e → e.Ok) (h : ScalHeader) (s' : St) :
    run nd (parseScalHeader σ n) ⟨b, c⟩ = .ok h s' ↔
      ∃ x, ScalRefers σ n h x ∧ h.Ok x 0 0 ∧ (∃ r, b.rem = encScalHeader x h ++ r) ∧
        s' = ⟨b.adv (encScalHeader x h).length, c⟩ := by
  rw [(codec_scalHeader hσ hn).run nd hb c h s']
  constructor
  · rintro ⟨⟨x, hx, ok⟩, hr, hs'⟩
    rw [encScal_eq hx] at hr hs'
    exact ⟨x, hx, ok, hr, hs'⟩
  · rintro ⟨x, hx, ok, hr, hs'⟩
    rw [← encScal_eq hx] at hr hs'
    exact ⟨⟨x, hx, ok⟩, hr, hs'⟩

/-- The library uses 0 for the default reference counts; when that is the same. -/
theorem scal_ok_iff {h : ScalHeader} {x : ScalCtx}
    (hd : (x.p.num_ref_idx_l0_default_active_minus1 = 0 ∧ x.p.num_ref_idx_l1_default_active_minus1 = 0) ∨
      x.n.quality_id ≠ 0 ∨ h.slice_type % 5 ≥ 2 ∨ h.ref.num_ref_idx_active_override_flag = 1) :
    h.Ok x x.p.num_ref_idx_l0_default_active_minus1 x.p.num_ref_idx_l1_default_active_minus1 ↔ h.Ok x 0 0 := by
  rcases hd with ⟨d1, d2⟩ | d | d | d
  · rw [d1, d2]
  · constructor <;>
    · intro r
      have := r.ref
      rw [if_neg d] at this
      exact { r with ref := by rw [if_neg d]; exact this }
  · constructor <;>
    · intro r
      have := r.ref
      refine { r with ref := ?_ }
      split
      · rw [if_pos ‹_›] at this
        have l0 := this.l0
        have l1 := this.l1
        rw [if_neg (by omega)] at l0 l1
        exact { this with l0 := by rw [if_neg (by omega)]; exact l0, l1 := by rw [if_neg (by omega)]; exact l1 }
      · rw [if_neg ‹_›] at this; exact this
  · constructor <;>
    · intro r
      have := r.ref
      refine { r with ref := ?_ }
      split
      · rw [if_pos ‹_›] at this
        have l0 := this.l0
        have l1 := this.l1
        rw [if_pos d] at l0 l1
        exact { this with l0 := by rw [if_pos d]; exact l0, l1 := by rw [if_pos d]; exact l1 }
      · rw [if_neg ‹_›] at this; exact this

/-- C48: for PPS whose default reference counts are one picture, and for slices that carry no count or override it, this
is the standard's header. -/
theorem C48_scalHeader_standard_partial (nd : Bool) {b : Buf} (hb : b.WF) (c : Nat) {σ : Store} (hσ : σ.Valid)
    {n : NalHeader} (hn : ∀ e, n.svc_extension = some e → e.Ok) {h : ScalHeader} {x : ScalCtx} (hx : ScalRefers σ n h x)
    (hd : (x.p.num_ref_idx_l0_default_active_minus1 = 0 ∧ x.p.num_ref_idx_l1_default_active_minus1 = 0) ∨
      x.n.quality_id ≠ 0 ∨ h.slice_type % 5 ≥ 2 ∨ h.ref.num_ref_idx_active_override_flag = 1) :
    (∃ s', run nd (parseScalHeader σ n) ⟨b, c⟩ = .ok h s') ↔
      h.Ok x x.p.num_ref_idx_l0_default_active_minus1 x.p.num_ref_idx_l1_default_active_minus1 ∧
        ∃ r, b.rem = encScalHeader x h ++ r := by
  rw [scal_ok_iff hd]
  constructor
  · rintro ⟨s', hs⟩
    obtain ⟨y, hy, ok, hr, _⟩ := (C48_scalHeader_exact_partial nd hb c hσ hn h s').mp hs
    have e : encScalHeader y h = encScalHeader x h := by rw [← encScal_eq hy, encScal_eq hx]
    have : y = x := by
      obtain ⟨a1, ⟨s1, a2, a3, a4⟩, a5, a6, a7⟩ := hx
      obtain ⟨b1, ⟨s2, b2, b3, b4⟩, b5, b6, b7⟩ := hy
      cases x; cases y
      simp only at a1 a2 a3 a4 a5 a6 a7 b1 b2 b3 b4 b5 b6 b7
      rw [a1] at b1; injection b1 with b1; subst b1
      rw [a2] at b2; injection b2 with b2; subst b2
      rw [a4] at b4; injection b4 with b4; subst b4
      rw [a5] at b5; injection b5 with b5; subst b5
      subst a3 b3 a6 a7 b6 b7
      rfl
    subst this
    exact ⟨ok, hr⟩
  · rintro ⟨ok, hr⟩
    exact ⟨_, (C48_scalHeader_exact_partial nd hb c hσ hn h _).mpr ⟨x, hx, ok, hr, rfl⟩⟩

/-- C48 fails for P and B slices without override under a PPS whose default count is not one picture: the header the
standard describes is never returned, because the count is returned (and used for the prediction weights) as 0. -/
theorem C48_defaults_ignored (nd : Bool) {b : Buf} (hb : b.WF) (c : Nat) {σ : Store} (hσ : σ.Valid) {n : NalHeader}
    (hn : ∀ e, n.svc_extension = some e → e.Ok) {h : ScalHeader} {x : ScalCtx} (hx : ScalRefers σ n h x)
    (ok : h.Ok x x.p.num_ref_idx_l0_default_active_minus1 x.p.num_ref_idx_l1_default_active_minus1)
    (hq : x.n.quality_id = 0) (ht : h.slice_type % 5 = 0 ∨ h.slice_type % 5 = 1)
    (ho : h.ref.num_ref_idx_active_override_flag = 0) (hd : x.p.num_ref_idx_l0_default_active_minus1 ≠ 0) (s' : St) :
    run nd (parseScalHeader σ n) ⟨b, c⟩ ≠ .ok h s' := by
  intro hs
  obtain ⟨y, hy, ok', _⟩ := (C48_scalHeader_exact_partial nd hb c hσ hn h s').mp hs
  have q : y.n = x.n := by
    have := hx.2.2.1
    rw [hy.2.2.1] at this
    injection this
  have r := ok.ref
  have r' := ok'.ref
  rw [if_pos hq] at r
  rw [if_pos (by rw [q]; exact hq)] at r'
  have a := r.l0
  have a' := r'.l0
  rw [if_pos ht, if_neg (by omega)] at a a'
  omega

/-- C48: without the PPS, the subset SPS, its SVC extension or the SVC NAL unit header extension nothing is returned. -/
theorem C48_missing_parameter_set (nd : Bool) {b : Buf} (hb : b.WF) (c : Nat) (σ : Store) {n : NalHeader} {h : ScalHeader}
    {s' : St} (hs : run nd (parseScalHeader σ n) ⟨b, c⟩ = .ok h s') : ∃ x, ScalRefers σ n h x := by
  obtain ⟨s1, hL, _⟩ := (run_ok_iff nd _ hb c _ _).mp hs
  unfold parseScalHeader at hL
  rw [runL_bind_ok] at hL
  obtain ⟨y, s2, h1, h2⟩ := hL
  split at h2
  · simp at h2
  · rename_i p hp
    split at h2
    · simp at h2
    · rename_i ss hss
      split at h2
      · simp at h2
      · rename_i e he
        rw [runL_bind_ok] at h2
        obtain ⟨_, _, _, h2⟩ := h2
        rw [runL_bind_ok] at h2
        obtain ⟨_, _, _, h2⟩ := h2
        rw [runL_bind_ok] at h2
        obtain ⟨_, _, _, h2⟩ := h2
        split at h2
        · simp at h2
        · rename_i x hne
          have : h.pic_parameter_set_id = y.2.2 := by
            unfold parseScalBody at h2
            iterate 6
              rw [runL_bind_ok] at h2
              obtain ⟨_, _, _, h2⟩ := h2
            simp only [Prog.pure_eq, runL_ret, Out.ok.injEq] at h2
            rw [← h2.1]
          exact ⟨⟨n.nal_ref_idc, n.nal_unit_type, ss.seq_parameter_set_data, p, e, x⟩, by rw [this]; exact hp,
            ⟨ss, hss, rfl, he⟩, hne, rfl, rfl⟩

/-- C48: undefined behaviour never happens. -/
theorem C48_scalHeader_safe (nd : Bool) {b : Buf} (hb : b.WF) (c : Nat) {σ : Store} (hσ : σ.Valid) (n : NalHeader) (e : Bad) :
    run nd (parseScalHeader σ n) ⟨b, c⟩ ≠ .bad e := (safe_scalHeader hσ n).run nd hb c e

/-- C48: the answer does not depend on the build mode. -/
theorem C48_mode_independent (σ : Store) (n : NalHeader) : ModeIndep (parseScalHeader σ n) := mode_scalHeader σ n

/-- The SVC extension of the example. -/
def exScalExt : SpsSvcExt :=
  { ChromaArrayType := 1, inter_layer_deblocking_filter_control_present_flag := 1, extended_spatial_scalability_idc := 2,
    chroma_phase_x_plus1_flag := 1, chroma_phase_y_plus1 := 2, seq_tcoeff_level_prediction_flag := 1,
    adaptive_tcoeff_level_prediction_flag := 1 }
/-- The subset SPS of the example: the SPS of the slice example in the Scalable High profile. -/
def exScalSps : SubsetSps :=
  { seq_parameter_set_data := { exSliceSps with profile_idc := 86 }, seq_parameter_set_svc_extension := some exScalExt }
/-- The store of the example. -/
def exScalStore : Store :=
  { pps := upd (fun _ => none) 9 exSlicePps, subset_sps := upd (fun _ => none) 3 exScalSps }
/-- The NAL unit header of the example. -/
def exScalNal : NalHeader :=
  { nal_ref_idc := 2, nal_unit_type := 20, svc_extension_flag := 1,
    svc_extension := some { priority_id := 5, dependency_id := 1, output_flag := 1, reserved_three_2bits := 3 } }
/-- The context of the example. -/
def exScalCtx : ScalCtx :=
  ⟨2, 20, exScalSps.seq_parameter_set_data, exSlicePps, exScalExt,
    exScalNal.svc_extension.getD {}⟩

theorem exScalStore_valid : exScalStore.Valid := by
  constructor
  · intro k s h; cases h
  · intro k p h
    unfold exScalStore upd at h
    dsimp only at h
    split at h
    · rename_i hk
      refine ⟨exStore_inRange.pps 9 p ?_, ?_⟩
      · rw [← h]; rfl
      · cases h; exact hk.symm
    · cases h
  · intro k s h
    unfold exScalStore upd at h
    dsimp only at h
    split at h
    · rename_i hk
      cases h
      refine ⟨⟨⟨by constructor <;> decide +kernel, ?_⟩, ?_⟩, hk.symm⟩
      · have := exSps_ok.tail
        constructor <;> first
          | decide +kernel
          | exact this.vui
      · rw [if_pos (by decide)]
        refine ⟨_, rfl, ?_⟩
        constructor <;> decide +kernel
    · cases h

theorem exScalNal_ok : ∀ e, exScalNal.svc_extension = some e → e.Ok := by
  intro e h; cases h; constructor <;> decide

/-- The header of the example, with override; `l0` is num_ref_idx_l0_active_minus1. -/
def exScal (override : Nat) : ScalHeader :=
  { copied := scalCopied 2 20 exScalCtx.s exScalCtx.p exScalCtx.e exScalCtx.n
    ChromaArrayType := 1, first_mb_in_slice := 17, slice_type := 1, pic_parameter_set_id := 9
    pic := { frame_num := 200, pic_order_cnt_lsb := 33, delta_pic_order_cnt_bottom := -1 }
    ref := { direct_spatial_mv_pred_flag := 1, num_ref_idx_active_override_flag := override,
             num_ref_idx_l0_active_minus1 := 1, ref_pic_list_modification := some { exMod with slice_type := 1 },
             pred_weight_table := some exTable, dec_ref_pic_marking := some exMarking }
    qp := { cabac_init_idc := 2, slice_qp_delta := -51, disable_deblocking_filter_idc := 6,
            slice_alpha_c0_offset_div2 := 6, slice_beta_offset_div2 := -6, pic_width_in_mbs_minus1 := 119,
            pic_height_in_map_units_minus1 := 67, slice_group_change_rate_minus1 := 99, slice_group_change_cycle := 82 }
    layer := { ref_layer_dq_id := 16, disable_inter_layer_deblocking_filter_idc := 1,
               constrained_intra_resampling_flag := 1, ref_layer_chroma_phase_x_plus1_flag := 1,
               ref_layer_chroma_phase_y_plus1 := 2, scaled_ref_layer_left_offset := -8 }
    pred := { adaptive_base_mode_flag := 0, default_base_mode_flag := 0, default_motion_prediction_flag := 1,
              adaptive_residual_prediction_flag := 1, tcoeff_level_prediction_flag := 1 }
    scan_idx_end := 15 }

macro "scal_ok" : tactic => `(tactic| (
  refine ⟨(scalCopied_ok _ _).mp rfl, by decide +kernel, by decide +kernel, by decide +kernel, by decide +kernel,
    ?_, ?_, ?_, ?_, ?_, ?_⟩
  · constructor <;> decide +kernel
  · rw [if_pos (by decide)]
    constructor <;> first
      | decide +kernel
      | exact ⟨_, rfl, exTable_ok⟩
      | exact ⟨_, rfl, exMarking_ok⟩
      | exact ⟨_, rfl, by constructor <;> first | decide +kernel | exact ⟨by decide, by decide +kernel⟩⟩
  · constructor <;> decide +kernel
  · rw [if_pos (by decide)]
    constructor <;> decide +kernel
  · rw [if_pos (by decide)]
    constructor <;> decide +kernel
  · decide +kernel))

theorem exScal1_ok : (exScal 1).Ok exScalCtx 0 0 := by scal_ok
theorem exScal0_ok : (exScal 0).Ok exScalCtx 1 0 := by scal_ok

theorem exScal_refers (o : Nat) : ScalRefers exScalStore exScalNal (exScal o) exScalCtx :=
  ⟨rfl, ⟨_, rfl, rfl, rfl⟩, rfl, rfl, rfl⟩

/-- With override the header is parsed. -/
example (nd : Bool) (r : List Bool) : runL nd (parseScalHeader exScalStore exScalNal)
    ⟨encScalHeader exScalCtx (exScal 1) ++ r, 0⟩ = .ok (exScal 1) ⟨r, 0⟩ := by
  rw [← encScal_eq (exScal_refers 1)]
  exact (codec_scalHeader exScalStore_valid exScalNal_ok).parse_append nd
    ⟨_, exScal_refers 1, exScal1_ok⟩ r 0

/-- Without override (the PPS default is two pictures) it is a header of the standard, and is not returned. -/
example (nd : Bool) {b : Buf} (hb : b.WF) (s' : St) :
    run nd (parseScalHeader exScalStore exScalNal) ⟨b, 0⟩ ≠ .ok (exScal 0) s' :=
  C48_defaults_ignored nd hb 0 exScalStore_valid exScalNal_ok (exScal_refers 0)
    exScal0_ok rfl (by decide) rfl (by decide) s'

end H264.Props
