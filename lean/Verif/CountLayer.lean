import Verif.Count
import Verif.Spec.Counter
import Verif.Codecs.Scalable

/-
When a scalable slice header is counted as unimplemented: exactly when it holds dec_ref_base_pic_marking().
-/

namespace H264
open Prog Props H264.Spec

/-- Running `p` counts one piece of unimplemented syntax and gives up. -/
def Counted {α : Type} (nd : Bool) (p : Prog α) (s : LSt) : Prop := ∃ s', runL nd p s = .null s' ∧ s'.cnt = s.cnt + 1

theorem counted_keeps {α : Type} {nd : Bool} {p : Prog α} (h : KeepsCnt p) (s : LSt) : ¬ Counted nd p s := by
  rintro ⟨s', h1, h2⟩
  have := h nd s
  rw [h1] at this
  dsimp only at this
  omega

theorem counted_bind {α β : Type} {nd : Bool} {p : Prog α} (f : α → Prog β) (h : KeepsCnt p) (s : LSt) :
    Counted nd (p >>= f) s ↔ ∃ a s', runL nd p s = .ok a s' ∧ Counted nd (f a) s' := by
  have hk := h nd s
  unfold Counted
  rw [runL_bind]
  constructor
  · rintro ⟨s', h1, h2⟩
    cases hp : runL nd p s with
    | ok a s1 =>
      rw [hp] at h1 hk
      dsimp only at hk
      exact ⟨a, s1, rfl, s', h1, by omega⟩
    | null s1 =>
      rw [hp] at h1 hk
      simp only [Out.bind, Out.null.injEq] at h1
      subst h1
      dsimp only at hk
      omega
    | bad e => rw [hp] at h1; cases h1
  · rintro ⟨a, s1, h1, s', h2, h3⟩
    rw [h1] at hk ⊢
    dsimp only at hk
    exact ⟨s', h2, by omega⟩

/-- Followed by something that never counts. -/
theorem counted_then {α β : Type} {nd : Bool} {p : Prog α} {f : α → Prog β} (hp : CountsOnce p) (h : ∀ a, KeepsCnt (f a)) (s : LSt) :
    Counted nd (p >>= f) s ↔ Counted nd p s := by
  have hk := hp nd s
  unfold Counted
  rw [runL_bind]
  cases he : runL nd p s with
  | ok a s1 =>
    rw [he] at hk
    dsimp only at hk
    constructor
    · rintro ⟨s', h1, h2⟩
      exact absurd ⟨s', h1, by omega⟩ (counted_keeps (nd := nd) (h a) s1)
    · rintro ⟨s', h1, _⟩; cases h1
  | null s1 => simp [Out.bind]
  | bad e => simp [Out.bind]

theorem counted_storeRef (nd : Bool) (use idr : Nat) (s : LSt) :
    Counted nd (parseStoreRef use idr) s ↔ idr = 0 ∧ ∃ b t, s.rem = b :: t ∧ (use ≠ 0 ∨ b = true) := by
  unfold parseStoreRef
  rw [counted_bind _ (KeepsCnt.u 1)]
  obtain ⟨l, c⟩ := s
  constructor
  · rintro ⟨v, s', h1, h2⟩
    cases l with
    | nil => rw [runL_u_gt nd (by simp)] at h1; cases h1
    | cons b t =>
      rw [runL_u_le nd (by omega) (by omega) (by simp)] at h1
      cases h1
      have hv : bitsVal (List.take 1 (b :: t)) = if b = true then 1 else 0 := by cases b <;> rfl
      rw [hv] at h2
      by_cases hc : (use ≠ 0 ∨ (if b = true then 1 else 0) ≠ 0) ∧ idr = 0
      · refine ⟨hc.2, b, t, rfl, ?_⟩
        rcases hc.1 with hc | hc
        · exact .inl hc
        · refine .inr ?_; cases b <;> simp_all
      · rw [if_neg hc] at h2
        exact absurd h2 (counted_keeps (KeepsCnt.pure _) _)
  · rintro ⟨rfl, b, t, h1, h2⟩
    dsimp only at h1
    subst h1
    refine ⟨_, _, runL_u_le nd (n := 1) (by omega) (by omega) (by simp) c, ?_⟩
    have hv : bitsVal (List.take 1 (b :: t)) = if b = true then 1 else 0 := by cases b <;> rfl
    rw [hv, if_pos]
    · exact ⟨⟨t, c + 1⟩, by simp [runL_bind, Out.bind, runL_unimpl], rfl⟩
    · refine ⟨?_, rfl⟩
      rcases h2 with h2 | h2
      · exact .inl h2
      · exact .inr (by simp [h2])

/-- The part coded when quality_id is 0, up to dec_ref_pic_marking(). -/
def scalRefHead (ref t cat : Nat) (p : Pps) (n : SvcHeaderExt) :
    Prog (Nat × (Nat × Nat × Nat) × RefPicListMod × (Nat × Option PredWeightTable) × Option DecRefPicMarking) := do
  let direct ← opt (isB t) 0 (u 1)
  let nr ← opt (isEP t ∨ isB t) (0, 0, 0) (parseNumRef t 0 0)
  let m ← parseRefPicListMod t
  let w ← opt ((p.weighted_pred_flag ≠ 0 ∧ isEP t) ∨ (p.weighted_bipred_idc = 1 ∧ isB t)) (0, none)
    (parseScalWeights cat t nr.2.1 nr.2.2 n.no_inter_layer_pred_flag)
  let d ← opt (ref ≠ 0) none do
    let d ← parseDecRefPicMarking n.idr_flag
    pure (some d)
  pure (direct, nr, m, w, d)

/-- The structure made of its values and store_ref_base_pic_flag. -/
def scalRefOf (a : Nat × (Nat × Nat × Nat) × RefPicListMod × (Nat × Option PredWeightTable) × Option DecRefPicMarking) (store : Nat) :
    ScalRef :=
  { direct_spatial_mv_pred_flag := a.1
    num_ref_idx_active_override_flag := a.2.1.1
    num_ref_idx_l0_active_minus1 := a.2.1.2.1
    num_ref_idx_l1_active_minus1 := a.2.1.2.2
    ref_pic_list_modification := some a.2.2.1
    base_pred_weight_table_flag := a.2.2.2.1.1
    pred_weight_table := a.2.2.2.1.2
    dec_ref_pic_marking := a.2.2.2.2
    store_ref_base_pic_flag := store }

theorem parseScalRef_eq (ref t cat : Nat) (p : Pps) (e : SpsSvcExt) (n : SvcHeaderExt) :
    parseScalRef ref t cat p e n = scalRefHead ref t cat p n >>= fun a =>
      opt (ref ≠ 0 ∧ e.slice_header_restriction_flag = 0) 0 (parseStoreRef n.use_ref_base_pic_flag n.idr_flag) >>= fun s =>
        pure (scalRefOf a s) := by
  unfold parseScalRef scalRefHead scalRefOf
  by_cases h1 : ref ≠ 0
  · by_cases h2 : e.slice_header_restriction_flag = 0
    · simp only [Prog.opt, if_pos h1, if_pos h2, if_pos (And.intro h1 h2), bind_assoc, pure_bind]
    · simp only [Prog.opt, if_pos h1, if_neg h2, if_neg (fun h : _ ∧ _ => h2 h.2), bind_assoc, pure_bind]
  · simp only [Prog.opt, if_neg h1, if_neg (fun h : _ ∧ _ => h1 h.1), bind_assoc, pure_bind]

theorem keeps_scalRefHead (ref t cat : Nat) (p : Pps) (n : SvcHeaderExt) : KeepsCnt (scalRefHead ref t cat p n) := by
  unfold scalRefHead parseScalWeights
  keepscnt

/-- Up to the marking, the header does not depend on slice_header_restriction_flag. -/
theorem counted_scalRef (nd : Bool) (ref t cat : Nat) (p : Pps) (e : SpsSvcExt) (n : SvcHeaderExt) (s : LSt) :
    Counted nd (parseScalRef ref t cat p e n) s ↔ ref ≠ 0 ∧ e.slice_header_restriction_flag = 0 ∧
      ∃ r s', runL nd (parseScalRef ref t cat p (restricted e) n) s = .ok r s' ∧
        Counted nd (parseStoreRef n.use_ref_base_pic_flag n.idr_flag) s' := by
  rw [parseScalRef_eq, parseScalRef_eq, counted_bind _ (keeps_scalRefHead _ _ _ _ _)]
  have h1 : ¬ (ref ≠ 0 ∧ (restricted e).slice_header_restriction_flag = 0) := by
    unfold restricted; rintro ⟨_, h⟩; cases h
  have hc : CountsOnce (parseStoreRef n.use_ref_base_pic_flag n.idr_flag) := by unfold parseStoreRef; countsonce
  simp only [Prog.opt, if_neg h1, runL_bind_ok, pure_eq, runL_ret, Out.ok.injEq]
  constructor
  · rintro ⟨a, s', h2, h3⟩
    by_cases hr : ref ≠ 0 ∧ e.slice_header_restriction_flag = 0
    · rw [if_pos hr] at h3
      exact ⟨hr.1, hr.2, _, s', ⟨a, s', h2, 0, s', ⟨rfl, rfl⟩, rfl, rfl⟩, (counted_then hc (fun _ => KeepsCnt.pure _) _).mp h3⟩
    · rw [if_neg hr] at h3
      exact absurd h3 (counted_keeps (.bind (.pure _) fun _ => .pure _) _)
  · rintro ⟨hr1, hr2, _, s', ⟨a, s1, h2, _, _, ⟨rfl, rfl⟩, rfl, rfl⟩, h3⟩
    refine ⟨a, s1, h2, ?_⟩
    rw [if_pos ⟨hr1, hr2⟩]
    exact (counted_then hc (fun _ => KeepsCnt.pure _) _).mpr h3

/-- The header up to redundant_pic_cnt, after the first three elements. -/
def scalHead (s : SpsData) (p : Pps) (n : SvcHeaderExt) : Prog ScalPic := do
  let cp ← opt (s.separate_colour_plane_flag = 1) 0 (u 2)
  let fn ← u (add32 s.log2_max_frame_num_minus4 4)
  let fp ← parseFieldPic s.frame_mbs_only_flag
  parseScalPic s p n cp fn fp

theorem codec_scalHead {x : ScalCtx} (hc : SvcCtx x) : Codec (scalHead x.s x.p x.n) (encScalPic x) (ScalPic.Ok x) := by
  have hfr : add32 x.s.log2_max_frame_num_minus4 4 = x.s.log2_max_frame_num_minus4 + 4 :=
    add32_eq (by have := hc.ctx.frame; omega)
  unfold scalHead
  rw [hfr]
  refine Codec.congr (
    Codec.bind (fun h : ScalPic => h.colour_plane_id) (Codec.optE Codec.u') (fun cp _ =>
    Codec.bind (fun h : ScalPic => h.frame_num) (Codec.u' (by omega) (by have := hc.ctx.frame; omega)) (fun fn _ =>
    Codec.bind (fun h : ScalPic => (h.field_pic_flag, h.bottom_field_flag)) (codec_fieldPic _) (fun fp _ =>
    codec_scalPic hc.ctx hc.idr _ _ _) (fun a b h => Prod.ext h.1.2.2.1 h.1.2.2.2)) (fun a b h => h.2.1.2.1))
      (fun a b h => h.2.2.1.1)) ?_ ?_
  · intro h
    constructor
    · rintro ⟨k1, k2, k3, _, k4, k5, k6, k7⟩
      refine ⟨k1, k2, ?_, ?_, k4, ?_, ?_, k6.1, k6.2, k7⟩
      · clear hc; split at k3 <;> simp_all
      · clear hc; split at k3 <;> simp_all
      · split at k5
        · rw [if_pos ‹_›]; exact k5.1
        · rw [if_neg ‹_›]; exact k5.1
      · split at k5
        · simp only [‹x.s.pic_order_cnt_type = 0›, true_and]; exact k5.2
        · rw [if_neg (fun h => absurd h.1 ‹_›)]; exact k5.2
    · intro q
      refine ⟨q.colour_plane_id, q.frame_num, ?_, ⟨rfl, rfl, rfl, rfl⟩, q.idr_pic_id, ?_, ⟨q.delta_length, q.delta⟩,
        q.redundant_pic_cnt⟩
      · have a := q.field; have b := q.bottom
        dsimp only
        split at a
        · rw [if_pos ‹_›]
          simp only [‹x.s.frame_mbs_only_flag = 0›, true_and] at b
          exact ⟨a, b⟩
        · rw [if_neg ‹_›]
          rw [if_neg (fun h => absurd h.1 ‹_›)] at b
          rw [a, b]
      · have a := q.lsb; have b := q.delta_bottom
        split at a
        · rw [if_pos ‹_›]
          simp only [‹x.s.pic_order_cnt_type = 0›, true_and] at b
          exact ⟨a, b⟩
        · rw [if_neg ‹_›]
          rw [if_neg (fun h => absurd h.1 ‹_›)] at b
          exact ⟨a, b⟩
  · intro h r
    unfold encScalPic
    simp only [List.append_assoc]

theorem keeps_scalHead (s : SpsData) (p : Pps) (n : SvcHeaderExt) : KeepsCnt (scalHead s p n) := by
  unfold scalHead parseScalPic
  keepscnt

/-- The header after redundant_pic_cnt. -/
def scalRest (ref type : Nat) (s : SpsData) (p : Pps) (e : SpsSvcExt) (n : SvcHeaderExt) (x : Nat × Nat × Nat) (pic : ScalPic)
    (r : ScalRef) : Prog ScalHeader := do
  let qp ← parseScalQp s p x.2.1
  let layer ← opt (n.no_inter_layer_pred_flag = 0 ∧ n.quality_id = 0) {} (parseScalLayer (getChromaArrayType s) e)
  let pred ← opt (n.no_inter_layer_pred_flag = 0) {} (parseScalPred e)
  let scan ← parseScan e.slice_header_restriction_flag pred.slice_skip_flag
  pure {
    copied := scalCopied ref type s p e n
    ChromaArrayType :=
      if r.pred_weight_table.isSome ∨
        ((n.no_inter_layer_pred_flag = 0 ∧ n.quality_id = 0) ∧ e.extended_spatial_scalability_idc = 2)
      then getChromaArrayType s else 0
    first_mb_in_slice := x.1
    slice_type := x.2.1
    pic_parameter_set_id := x.2.2
    pic, ref := r, qp, layer, pred
    scan_idx_start := scan.1
    scan_idx_end := scan.2 }

theorem scalBody_eq (ref type : Nat) (s : SpsData) (p : Pps) (e : SpsSvcExt) (n : SvcHeaderExt) (x : Nat × Nat × Nat) :
    (do
      let cp ← opt (s.separate_colour_plane_flag = 1) 0 (u 2)
      let fn ← u (add32 s.log2_max_frame_num_minus4 4)
      let fp ← parseFieldPic s.frame_mbs_only_flag
      parseScalBody ref type s p e n x cp fn fp) =
    scalHead s p n >>= fun pic => opt (n.quality_id = 0) {} (parseScalRef ref x.2.1 (getChromaArrayType s) p e n) >>= fun r =>
      scalRest ref type s p e n x pic r := by
  unfold scalHead parseScalBody scalRest
  simp only [bind_assoc]

theorem keeps_scalRest (ref type : Nat) (s : SpsData) (p : Pps) (e : SpsSvcExt) (n : SvcHeaderExt) (x : Nat × Nat × Nat) (pic : ScalPic)
    (r : ScalRef) : KeepsCnt (scalRest ref type s p e n x pic r) := by
  unfold scalRest parseScalQp parseScalLayer parseLayerDeblocking parseScalPred parseModes parseAdaptive parseScan parseRefChroma
    parseFourSe
  keepscnt

theorem counts_scalRef (ref t cat : Nat) (p : Pps) (e : SpsSvcExt) (n : SvcHeaderExt) : CountsOnce (parseScalRef ref t cat p e n) := by
  rw [parseScalRef_eq]
  unfold parseStoreRef
  refine .bind (.of (keeps_scalRefHead _ _ _ _ _)) fun _ => ?_
  countsonce

theorem restricted_ctx {x : ScalCtx} (h : SvcCtx x) : SvcCtx x.restricted := ⟨h.ctx, h.noInter, h.idr, h.useRef, h.deblocking, h.tcoeff⟩

/-- A scalable slice header is counted exactly if it holds dec_ref_base_pic_marking(). -/
theorem counted_scalHeader (nd : Bool) {σ : Store} (hσ : σ.Valid) {n : NalHeader} (hn : ∀ e, n.svc_extension = some e → e.Ok)
    (l : List Bool) (c : Nat) : Counted nd (parseScalHeader σ n) ⟨l, c⟩ ↔ HeaderMarking σ n l := by
  unfold parseScalHeader
  rw [counted_bind _ keeps_sliceStart]
  constructor
  · rintro ⟨y, s1, h1, h2⟩
    obtain ⟨⟨a1, a2, a3⟩, r, hl, hs⟩ := (codec_sliceStart nd l c y s1).mp h1
    subst hs
    cases hp : σ.pps y.2.2 with
    | none => rw [hp] at h2; exact absurd h2 (counted_keeps .null _)
    | some p =>
      rw [hp] at h2
      dsimp only at h2
      cases hss : σ.subset_sps p.seq_parameter_set_id with
      | none => rw [hss] at h2; exact absurd h2 (counted_keeps .null _)
      | some ss =>
        rw [hss] at h2
        dsimp only at h2
        cases he : ss.seq_parameter_set_svc_extension with
        | none => rw [he] at h2; exact absurd h2 (counted_keeps .null _)
        | some e =>
          rw [he] at h2
          dsimp only at h2
          cases hne : n.svc_extension with
          | none => rw [hne] at h2; exact absurd h2 (counted_keeps (by keepscnt) _)
          | some x =>
            rw [hne] at h2
            dsimp only at h2
            have hc := SvcCtx.ofStore (ref := n.nal_ref_idc) (type := n.nal_unit_type) hσ hn hp hss he hne
            rw [scalBody_eq, counted_bind _ (keeps_scalHead _ _ _)] at h2
            obtain ⟨pic, s2, h3, h4⟩ := h2
            obtain ⟨ok, r2, hr2, rfl⟩ := (codec_scalHead hc nd _ _ _ _).mp h3
            rw [counted_then (.opt fun _ => counts_scalRef _ _ _ _ _ _) (fun _ => keeps_scalRest _ _ _ _ _ _ _ _ _)] at h4
            by_cases hq : x.quality_id = 0
            · rw [Prog.opt, if_pos hq, counted_scalRef, getChromaArrayType_eq hc.ctx.rs] at h4
              obtain ⟨b1, b2, rf, s3, b3, b4⟩ := h4
              obtain ⟨ok2, r3, hr3, rfl⟩ := (codec_scalRef (restricted_ctx hc) a2 nd _ _ _ _).mp b3
              obtain ⟨b5, st, t, b6, b7⟩ := (counted_storeRef _ _ _ _).mp b4
              dsimp only at b6
              subst b6
              refine ⟨⟨n.nal_ref_idc, n.nal_unit_type, ss.seq_parameter_set_data, p, e, x⟩,
                { first_mb_in_slice := y.1, slice_type := y.2.1, pic_parameter_set_id := y.2.2, pic := pic, ref := rf }, st, t,
                ⟨hp, ⟨ss, hss, rfl, he⟩, hne, rfl, rfl⟩, a1, a2, a3, ok, ok2, b1, hq, b2, b5, ?_, ?_⟩
              · have := hc.useRef
                dsimp only at this ⊢
                rcases b7 with b7 | b7
                · left; omega
                · exact .inr b7
              · rw [hl, hr2, hr3]
                simp only [List.append_assoc]
            · rw [Prog.opt, if_neg hq] at h4
              exact absurd h4 (counted_keeps (.pure _) _)
  · rintro ⟨x, h, st, t, ⟨r1, ⟨ss, r2, r3, r4⟩, r5, r6, r7⟩, a1, a2, a3, ok, ok2, b1, hq, b2, b5, b7, hl⟩
    have hc : SvcCtx x := by
      have := SvcCtx.ofStore (ref := x.nal_ref_idc) (type := x.nal_unit_type) hσ hn r1 r2 r4 r5
      rw [r3] at this
      exact this
    refine ⟨(h.first_mb_in_slice, h.slice_type, h.pic_parameter_set_id),
      ⟨encScalPic x h.pic ++ (encScalRef x.restricted h.slice_type h.ref ++ st :: t), c⟩, ?_, ?_⟩
    · refine (codec_sliceStart nd l c _ _).mpr ⟨⟨a1, a2, a3⟩, _, ?_, rfl⟩
      rw [hl]; simp only [List.append_assoc]
    · dsimp only
      rw [r1]
      dsimp only
      rw [r2]
      dsimp only
      rw [r4]
      dsimp only
      rw [r5, r3, ← r6, ← r7]
      dsimp only
      rw [scalBody_eq, counted_bind _ (keeps_scalHead _ _ _)]
      refine ⟨h.pic, _, (codec_scalHead hc nd _ _ _ _).mpr ⟨ok, _, rfl, rfl⟩, ?_⟩
      rw [counted_then (.opt fun _ => counts_scalRef _ _ _ _ _ _) (fun _ => keeps_scalRest _ _ _ _ _ _ _ _ _), Prog.opt, if_pos hq,
        counted_scalRef, getChromaArrayType_eq hc.ctx.rs]
      refine ⟨b1, b2, h.ref, _, (codec_scalRef (restricted_ctx hc) a2 nd _ _ _ _).mpr ⟨ok2, _, rfl, rfl⟩, ?_⟩
      refine (counted_storeRef _ _ _ _).mpr ⟨b5, st, t, rfl, ?_⟩
      rcases b7 with b7 | b7
      · left; omega
      · exact .inr b7

end H264
