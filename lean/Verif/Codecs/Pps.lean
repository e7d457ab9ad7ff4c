import Verif.Codecs.Sps
import Verif.Model.Pps
import Verif.Spec.Syntax3

/-
Exact decoding of PPS.
-/

namespace H264
open Prog

theorem le_pow_ceilLog2 {x : Nat} (h : 1 ≤ x) (k : Nat) : x ≤ 2 ^ k ↔ ceilLog2 x ≤ k := by
  unfold ceilLog2
  split
  · have : 1 ≤ 2 ^ k := Nat.one_le_two_pow
    omega
  · have h1 : x - 1 ≠ 0 := by omega
    rw [Nat.succ_le_iff, Nat.log2_lt h1]
    omega

theorem sliceGroupIdLen_eq {n : Nat} (h : n ≤ 7) : sliceGroupIdLen n = groupIdBits n := by
  rcases (by omega : n = 0 ∨ n = 1 ∨ n = 2 ∨ n = 3 ∨ n = 4 ∨ n = 5 ∨ n = 6 ∨ n = 7) with
    rfl | rfl | rfl | rfl | rfl | rfl | rfl | rfl <;> decide +kernel

theorem codec_corner : Codec parseTopLeftBottomRight (fun e => encUE e.1 ++ encUE e.2)
    (fun e => ueRange e.1 ∧ ueRange e.2) := by
  unfold parseTopLeftBottomRight
  refine Codec.congr (rd Prod.fst ← Codec.ue; rd Prod.snd ← Codec.ue; Codec.ret _) ?_ ?_
  · rintro ⟨a, b⟩; simp [ueRange]
  · rintro ⟨a, b⟩ _; simp

theorem encPairs_map : ∀ l : List (Nat × Nat),
    encPairs (l.map (fun e => e.1)) (l.map (fun e => e.2)) = l.flatMap (fun e => encUE e.1 ++ encUE e.2)
  | [] => rfl
  | a :: l => by simp only [List.map_cons, encPairs, List.flatMap_cons, encPairs_map l]

theorem zip2_map : ∀ l : List (Nat × Nat), (l.map (fun e => e.1)).zip (l.map (fun e => e.2)) = l
  | [] => rfl
  | a :: l => by simp only [List.map_cons, List.zip_cons_cons, zip2_map l]

theorem map_zip2 {a b : List Nat} (h : a.length = b.length) :
    (a.zip b).map (fun e => e.1) = a ∧ (a.zip b).map (fun e => e.2) = b :=
  ⟨List.map_fst_zip (by omega), List.map_snd_zip (by omega)⟩

theorem codec_corners (n t : Nat) : Codec (do
    let l ← parseTopLeftBottomRight.rep n
    pure ({ slice_group_map_type := t, top_left := l.map (·.1), bottom_right := l.map (·.2) } : SliceGroups))
    (fun g => encPairs g.top_left g.bottom_right)
    (fun g => (g.top_left.length = n ∧ g.bottom_right.length = n ∧ (∀ v ∈ g.top_left, ueRange v) ∧
      (∀ v ∈ g.bottom_right, ueRange v)) ∧
      g = { slice_group_map_type := t, top_left := g.top_left, bottom_right := g.bottom_right }) := by
  refine Codec.congr (
    Codec.bind (fun g : SliceGroups => g.top_left.zip g.bottom_right) (codec_corner.rep n) (fun l _ => Codec.ret _)
      (by intro a b h; (repeat (replace h := And.right h)); rw [h]; exact zip2_map a)) ?_ ?_
  · intro g
    constructor
    · rintro ⟨⟨h1, h2⟩, h3⟩
      have e1 := congrArg SliceGroups.top_left h3
      have e2 := congrArg SliceGroups.bottom_right h3
      dsimp only at e1 e2
      refine ⟨⟨?_, ?_, ?_, ?_⟩, ?_⟩
      · rw [e1, List.length_map]; exact h1
      · rw [e2, List.length_map]; exact h1
      · rw [e1]; intro v hv; obtain ⟨x, hx, rfl⟩ := List.mem_map.mp hv; exact (h2 x hx).1
      · rw [e2]; intro v hv; obtain ⟨x, hx, rfl⟩ := List.mem_map.mp hv; exact (h2 x hx).2
      · rw [← e1, ← e2] at h3; exact h3
    · rintro ⟨⟨h1, h2, h3, h4⟩, h5⟩
      obtain ⟨m1, m2⟩ := map_zip2 (h1.trans h2.symm)
      refine ⟨⟨?_, ?_⟩, ?_⟩
      · simp only [List.length_zip]; omega
      · intro a ha
        exact ⟨h3 _ (List.of_mem_zip ha).1, h4 _ (List.of_mem_zip ha).2⟩
      · simp only [m1, m2]; exact h5
  · rintro g ⟨⟨h1, h2, _⟩, _⟩
    obtain ⟨m1, m2⟩ := map_zip2 (h1.trans h2.symm)
    have := encPairs_map (g.top_left.zip g.bottom_right)
    rw [m1, m2] at this
    rw [this]; simp

theorem SliceGroups.ok_zero (g : SliceGroups) : g.Ok 0 ↔ g = {} := by
  constructor
  · rintro ⟨h1, h2, h3, h4, h5⟩
    simp only [Nat.lt_irrefl, gt_iff_lt, false_and, if_false] at h1 h2 h3 h4 h5
    cases g
    simp_all
  · rintro rfl
    constructor <;> simp

theorem codec_sliceGroups {n : Nat} (hn : n ≤ 7) :
    Codec (parseSliceGroups n) (encSliceGroups n) (SliceGroups.Ok n) := by
  unfold parseSliceGroups
  by_cases h0 : n = 0
  · subst h0
    unfold opt
    rw [if_neg (by omega)]
    refine Codec.congr (Codec.ret _) ?_ ?_
    · intro g; exact g.ok_zero.symm
    · intro g _; simp [encSliceGroups, encIf]
  · have hn0 : n > 0 := by omega
    unfold opt
    rw [if_pos hn0]
    have hlen : 1 ≤ groupIdBits n ∧ groupIdBits n ≤ 32 := by unfold groupIdBits; split <;> (try split) <;> (try split) <;> omega
    rw [sliceGroupIdLen_eq hn]
    refine Codec.congr (
      Codec.bind SliceGroups.slice_group_map_type (Codec.ueIn (by decide)) (fun t ht =>
      Codec.ite (fun _ => rd SliceGroups.run_length_minus1 ← Codec.ue.rep _; Codec.ret _) (fun _ =>
      Codec.ite (fun _ => codec_corners n t) (fun _ =>
      Codec.ite (fun _ =>
        rd SliceGroups.slice_group_change_direction_flag ← Codec.u';
        rd SliceGroups.slice_group_change_rate_minus1 ← Codec.ue;
        ck; Codec.ret _) (fun _ =>
      Codec.ite (fun _ =>
        rd SliceGroups.pic_size_in_map_units_minus1 as m hm ← Codec.ueIn (by decide);
        rd SliceGroups.slice_group_id ← (Codec.u hlen.1 hlen.2).rep _;
        Codec.ret _) (fun _ => Codec.ret _)))))
        (by
          intro a b h
          by_cases c0 : a = 0
          · rw [if_pos c0] at h; rw [h.2]
          rw [if_neg c0] at h
          by_cases c2 : a = 2
          · rw [if_pos c2] at h; rw [h.2]
          rw [if_neg c2] at h
          by_cases c3 : a = 3 ∨ a = 4 ∨ a = 5
          · rw [if_pos c3] at h; rw [h.2.2.2]
          rw [if_neg c3] at h
          by_cases c6 : a = 6
          · rw [if_pos c6] at h; rw [h.2.2]
          rw [if_neg c6] at h; rw [h])) ?_ ?_
    · rintro ⟨t, rl, tl, br, d, r, ps, ids⟩
      dsimp only
      constructor
      · rintro ⟨h1, h⟩
        by_cases c0 : t = 0
        · rw [if_pos c0, SliceGroups.mk.injEq] at h
          obtain ⟨ha, -, -, rfl, rfl, rfl, rfl, rfl, rfl⟩ := h
          constructor <;> simp [c0, hn0] <;> exact ha
        rw [if_neg c0] at h
        by_cases c2 : t = 2
        · rw [if_pos c2, SliceGroups.mk.injEq] at h
          obtain ⟨ha, -, rfl, -, -, rfl, rfl, rfl, rfl⟩ := h
          constructor <;> simp [c2, hn0] <;> exact ha
        rw [if_neg c2] at h
        by_cases c3 : t = 3 ∨ t = 4 ∨ t = 5
        · rw [if_pos c3, SliceGroups.mk.injEq] at h
          have c3' : 3 ≤ t ∧ t ≤ 5 := by omega
          have c6 : t ≠ 6 := by omega
          obtain ⟨ha, hb, -, -, rfl, rfl, rfl, -, -, rfl, rfl⟩ := h
          constructor <;> simp [c0, c2, c3', c6, hn0]
          · omega
          · exact ⟨ha, hb⟩
        rw [if_neg c3] at h
        have c3' : ¬ (3 ≤ t ∧ t ≤ 5) := by omega
        by_cases c6 : t = 6
        · rw [if_pos c6, SliceGroups.mk.injEq] at h
          obtain ⟨ha, hb, -, rfl, rfl, rfl, rfl, rfl, -, -⟩ := h
          constructor <;> simp [c6, hn0]
          exact ⟨ha.2, hb⟩
        rw [if_neg c6, SliceGroups.mk.injEq] at h
        obtain ⟨-, rfl, rfl, rfl, rfl, rfl, rfl, rfl⟩ := h
        constructor <;> simp [c0, c2, c3', c6, hn0]
        exact h1.2
      · rintro ⟨h1, h2, h3, h4, h5⟩
        rw [if_pos hn0] at h1
        refine ⟨⟨Nat.zero_le _, h1⟩, ?_⟩
        dsimp only at h1 h2 h3 h4 h5
        simp only [hn0, true_and] at h2 h3 h4 h5
        by_cases c0 : t = 0
        · subst c0
          simp at h2 h3 h4 h5 ⊢
          exact ⟨h2, h3.1, h3.2, h4.1, h4.2, h5.1, h5.2⟩
        rw [if_neg c0] at h2 ⊢
        by_cases c2 : t = 2
        · subst c2
          simp at h2 h3 h4 h5 ⊢
          exact ⟨h3, h2, h4.1, h4.2, h5.1, h5.2⟩
        rw [if_neg c2] at h3 ⊢
        by_cases c3 : t = 3 ∨ t = 4 ∨ t = 5
        · rw [if_pos (by omega)] at h4
          rw [if_neg (by omega)] at h5
          rw [if_pos c3, SliceGroups.mk.injEq]
          have := h4.2
          exact ⟨h4.1, h4.2, by unfold ueRange at this; omega, rfl, h2, h3.1, h3.2, rfl, rfl, h5.1, h5.2⟩
        rw [if_neg c3]
        rw [if_neg (by omega)] at h4
        by_cases c6 : t = 6
        · rw [if_pos c6] at h5 ⊢
          rw [SliceGroups.mk.injEq]
          exact ⟨⟨Nat.zero_le _, h5.1⟩, h5.2, rfl, h2, h3.1, h3.2, h4.1, h4.2, rfl, rfl⟩
        rw [if_neg c6] at h5 ⊢
        rw [SliceGroups.mk.injEq]
        exact ⟨rfl, h2, h3.1, h3.2, h4.1, h4.2, h5⟩
    · rintro ⟨t, rl, tl, br, d, r, ps, ids⟩ -
      unfold encSliceGroups encIf
      dsimp only
      rw [if_pos hn0]
      by_cases c0 : t = 0
      · subst c0; simp
      by_cases c2 : t = 2
      · subst c2; simp
      by_cases c3 : t = 3 ∨ t = 4 ∨ t = 5
      · have c3' : 3 ≤ t ∧ t ≤ 5 := by omega
        have c6 : t ≠ 6 := by omega
        simp [c0, c2, c3, c3', c6]
      have c3' : ¬ (3 ≤ t ∧ t ≤ 5) := by omega
      by_cases c6 : t = 6
      · subst c6; simp
      simp [c0, c2, c3, c3', c6]

theorem codec_ppsHead : Codec parsePpsHead encPpsHead PpsHead.Ok := by
  unfold parsePpsHead
  refine Codec.congr (
    rd PpsHead.pic_parameter_set_id ← Codec.ueIn (by decide);
    rd PpsHead.seq_parameter_set_id ← Codec.ueIn (by decide);
    rd PpsHead.entropy_coding_mode_flag ← Codec.u';
    rd PpsHead.bottom_field_pic_order_in_frame_present_flag ← Codec.u';
    rd PpsHead.num_slice_groups_minus1 as n hn ← Codec.ueIn (by decide);
    rd PpsHead.toSliceGroups ← codec_sliceGroups hn.2;
    rd PpsHead.num_ref_idx_l0_default_active_minus1 ← Codec.ueIn (by decide);
    rd PpsHead.num_ref_idx_l1_default_active_minus1 ← Codec.ueIn (by decide);
    rd PpsHead.weighted_pred_flag ← Codec.u';
    rd PpsHead.weighted_bipred_idc ← Codec.u';
    rd PpsHead.pic_init_qp_minus26 ← Codec.se;
    rd PpsHead.pic_init_qs_minus26 ← Codec.se;
    rd PpsHead.chroma_qp_index_offset ← Codec.se;
    rd PpsHead.deblocking_filter_control_present_flag ← Codec.u';
    rd PpsHead.constrained_intra_pred_flag ← Codec.u';
    rd PpsHead.redundant_pic_cnt_present_flag ← Codec.u';
    Codec.ret _) ?_ ?_
  · intro p
    constructor
    · rintro ⟨⟨-, h1⟩, ⟨-, h2⟩, h3, h4, ⟨-, h5⟩, h6, ⟨-, h7⟩, ⟨-, h8⟩, h9, h10, h11, h12, h13, h14, h15, h16, -⟩
      exact ⟨h1, h2, h3, h4, h5, h6, h7, h8, h9, h10, h11, h12, h13, h14, h15, h16⟩
    · rintro ⟨h1, h2, h3, h4, h5, h6, h7, h8, h9, h10, h11, h12, h13, h14, h15, h16⟩
      exact ⟨⟨Nat.zero_le _, h1⟩, ⟨Nat.zero_le _, h2⟩, h3, h4, ⟨Nat.zero_le _, h5⟩, h6, ⟨Nat.zero_le _, h7⟩,
        ⟨Nat.zero_le _, h8⟩, h9, h10, h11, h12, h13, h14, h15, h16, rfl⟩
  · intro p _
    unfold encPpsHead
    simp only [List.append_nil]
    simp only [List.append_assoc]

theorem safe_sliceGroups (n : Nat) : Safe (parseSliceGroups n) := by
  unfold parseSliceGroups parseTopLeftBottomRight; safe
macro_rules | `(tactic| safe_step) => `(tactic| with_reducible exact safe_sliceGroups _)

theorem safe_ppsHead : Safe parsePpsHead := by unfold parsePpsHead; safe
macro_rules | `(tactic| safe_step) => `(tactic| with_reducible exact safe_ppsHead)

theorem safe_ppsExt (c : Nat) : Safe (parsePpsExt c) := by unfold parsePpsExt; safe
macro_rules | `(tactic| safe_step) => `(tactic| with_reducible exact safe_ppsExt _)

theorem safe_pps (c : Nat) : Safe (parsePps c) := by unfold parsePps; safe
macro_rules | `(tactic| safe_step) => `(tactic| with_reducible exact safe_pps _)

/-- The members set by the optional end. -/
def PpsExt.fields (e : PpsExt) : Nat × Nat × Scal × Int :=
  (e.transform_8x8_mode_flag, e.pic_scaling_matrix_present_flag, keepLists 0 {} e.lists, e.second_chroma_qp_index_offset)

theorem ppsListCount_eq {cf t m : Nat} (hm : m = 1) :
    6 + (if cf ≠ 3 then 2 else 6) * t = ppsListCount cf t m := by
  unfold ppsListCount; rw [if_pos hm]

theorem ppsExt_complete (nd : Bool) {cf : Nat} {e : PpsExt} (ok : e.Ok cf) (r : List Bool) (c : Nat) :
    runL nd (parsePpsExt cf) ⟨encPpsExt e ++ r, c⟩ = .ok e.fields ⟨r, c⟩ := by
  unfold parsePpsExt encPpsExt
  simp only [List.append_assoc]
  rw [runL_bind, runL_flag nd ok.transform_8x8_mode_flag]
  simp only [Out.bind]
  rw [runL_bind, runL_flag nd ok.pic_scaling_matrix_present_flag]
  simp only [Out.bind]
  have hfl := ok.pic_scaling_matrix_present_flag
  have key : ∀ r, runL nd (opt (e.pic_scaling_matrix_present_flag ≠ 0) {}
      (scalingLists (6 + (if cf ≠ 3 then 2 else 6) * e.transform_8x8_mode_flag) 0 {}))
      ⟨encLists e.lists ++ r, c⟩ = .ok (keepLists 0 {} e.lists) ⟨r, c⟩ := by
    intro r
    unfold opt
    by_cases hf : e.pic_scaling_matrix_present_flag = 1
    · rw [if_pos (by omega), ppsListCount_eq hf, ← ok.count]
      exact scalingLists_ok nd _ _ _ _ _ ⟨by decide, by decide⟩ ok.lists
    · rw [if_neg (by omega)]
      have h0 : e.lists = [] := by
        have := ok.count
        unfold ppsListCount at this
        rw [if_neg hf] at this
        exact List.length_eq_zero_iff.mp this
      rw [h0]
      simp only [encLists, keepLists, List.nil_append, Prog.pure_eq, runL_ret]
  rw [runL_bind, key]
  simp only [Out.bind]
  rw [runL_bind, Codec.se.parse_append nd ok.second_chroma_qp_index_offset]
  simp only [Out.bind, Prog.pure_eq, runL_ret, PpsExt.fields]

theorem ppsExt_sound (nd : Bool) {cf : Nat} {l : List Bool} {c : Nat} {f : Nat × Nat × Scal × Int} {s' : LSt}
    (h : runL nd (parsePpsExt cf) ⟨l, c⟩ = .ok f s') :
    (∃ e r, PpsExt.Ok cf e ∧ f = e.fields ∧ l = encPpsExt e ++ r ∧ s' = ⟨r, c⟩) ∨
    f.2.1 = 1 ∧ ∃ t m rest, t < 2 ∧ m < 2 ∧ l = encU 1 t ++ encU 1 m ++ rest ∧ MalformedLists (ppsListCount cf t m) 0 rest := by
  unfold parsePpsExt at h
  rw [runL_bind_ok] at h
  obtain ⟨t, s1, h1, h⟩ := h
  obtain ⟨ht, r1, rfl, rfl⟩ := ((Codec.u' (n := 1)) nd l c t s1).mp h1
  rw [runL_bind_ok] at h
  obtain ⟨m, s2, h2, h⟩ := h
  obtain ⟨hm, r2, rfl, rfl⟩ := ((Codec.u' (n := 1)) nd r1 c m s2).mp h2
  rw [runL_bind_ok] at h
  obtain ⟨sc, s3, h3, h⟩ := h
  rw [runL_bind_ok] at h
  obtain ⟨q, s4, h4, h⟩ := h
  simp only [Prog.pure_eq, runL_ret, Out.ok.injEq] at h
  obtain ⟨rfl, rfl⟩ := h
  unfold opt at h3
  by_cases hf : m = 1
  · rw [if_pos (by omega), ppsListCount_eq hf] at h3
    rcases scalingLists_only nd _ _ _ _ _ _ _ ⟨by decide, by decide⟩ h3 with ⟨ls, r3, e1, e2, e3, e4, e5⟩ | hmal
    · subst e3
      subst e4
      subst e5
      obtain ⟨hq, r4, e6, e7⟩ := (Codec.se nd r3 c q s4).mp h4
      exact Or.inl ⟨⟨t, m, ls, q⟩, r4, ⟨ht, hm, e1, e2, hq⟩, rfl,
        by rw [e6]; simp only [encPpsExt, List.append_assoc], e7⟩
    · exact Or.inr ⟨hf, t, m, r2, ht, hm, by simp only [List.append_assoc], hmal⟩
  · rw [if_neg (by omega)] at h3
    simp only [Prog.pure_eq, runL_ret, Out.ok.injEq] at h3
    obtain ⟨rfl, rfl⟩ := h3
    obtain ⟨hq, r4, e6, e7⟩ := (Codec.se nd r2 c q s4).mp h4
    refine Or.inl ⟨⟨t, m, [], q⟩, r4, ⟨ht, hm, ?_, trivial, hq⟩, rfl,
      by rw [e6]; simp only [encPpsExt, encLists, List.append_assoc, List.nil_append], e7⟩
    unfold ppsListCount; simp only [if_neg hf, List.length_nil]

/-- What is done after the last syntax element has no influence on the value returned. -/
theorem runL_attempt_trailing (nd : Bool) {α : Type} (v : α) (s : LSt) :
    ∃ s', runL nd (do let _ ← rbspTrailingBits.attempt; pure v) s = .ok v s' := by
  rw [runL_bind, runL_attempt]
  have := safe_trailing nd s
  cases hr : runL nd rbspTrailingBits s with
  | ok a s2 => exact ⟨s2, rfl⟩
  | null s2 => exact ⟨s2, rfl⟩
  | bad e => exact absurd hr (this e)

theorem pps_complete (nd : Bool) {cf : Nat} {x : PpsSyn} (ok : x.Ok cf) (r : List Bool) (c : Nat)
    (hm : moreData (encOpt encPpsExt x.ext ++ r) = x.ext.isSome) :
    ∃ s', runL nd (parsePps cf) ⟨encPps x ++ r, c⟩ = .ok (x.state cf) s' := by
  unfold parsePps encPps
  rw [List.append_assoc, runL_bind, codec_ppsHead.parse_append nd ok.head]
  simp only [Out.bind]
  rw [runL_bind, runL_more]
  simp only [Out.bind]
  rw [hm, runL_bind]
  unfold opt PpsSyn.state
  cases hx : x.ext with
  | none =>
    rw [if_neg (by simp)]
    simp only [Prog.pure_eq, runL_ret, Out.bind]
    exact runL_attempt_trailing nd _ _
  | some e =>
    rw [if_pos (by simp)]
    simp only [encOpt]
    rw [ppsExt_complete nd (ok.ext e hx)]
    simp only [Out.bind]
    exact runL_attempt_trailing nd _ _

theorem pps_sound (nd : Bool) {cf : Nat} {l : List Bool} {c : Nat} {st : Pps} {s' : LSt}
    (h : runL nd (parsePps cf) ⟨l, c⟩ = .ok st s') :
    st.toPpsHead.Ok ∧ st.chroma_format_idc = cf ∧
    ((∃ x r, x.Ok cf ∧ st = x.state cf ∧ l = encPps x ++ r ∧
      moreData (encOpt encPpsExt x.ext ++ r) = x.ext.isSome) ∨ (st.pic_scaling_matrix_present_flag = 1 ∧ MalformedPps cf l)) := by
  unfold parsePps at h
  rw [runL_bind_ok] at h
  obtain ⟨hd, s1, h1, h⟩ := h
  obtain ⟨hok, r1, hl, hs⟩ := (codec_ppsHead nd l c hd s1).mp h1
  subst hs
  rw [runL_bind_ok] at h
  obtain ⟨more, s2, h2, h⟩ := h
  rw [runL_more] at h2
  simp only [Out.ok.injEq] at h2
  obtain ⟨hmd, rfl⟩ := h2
  rw [runL_bind_ok] at h
  obtain ⟨e, s3, h3, h⟩ := h
  rw [runL_bind_ok] at h
  obtain ⟨_, s4, _, h⟩ := h
  simp only [Prog.pure_eq, runL_ret, Out.ok.injEq] at h
  obtain ⟨rfl, rfl⟩ := h
  refine ⟨hok, rfl, ?_⟩
  unfold opt at h3
  cases more with
  | false =>
    rw [if_neg (by simp)] at h3
    simp only [Prog.pure_eq, runL_ret, Out.ok.injEq] at h3
    obtain ⟨rfl, rfl⟩ := h3
    refine Or.inl ⟨⟨hd, none⟩, r1, ⟨hok, by simp⟩, ?_, ?_, ?_⟩
    · simp only [PpsSyn.state]
    · rw [hl]; simp only [encPps, encOpt, List.append_nil]
    · simpa only [encOpt, List.nil_append, Option.isSome] using hmd
  | true =>
    rw [if_pos rfl] at h3
    rcases ppsExt_sound nd h3 with ⟨x, r, e1, e2, e3, e4⟩ | ⟨e0, t, m, rest, e1, e2, e3, e4⟩
    · refine Or.inl ⟨⟨hd, some x⟩, r, ⟨hok, ?_⟩, ?_, ?_, ?_⟩
      · intro e he; simp only [Option.some.injEq] at he; rw [← he]; exact e1
      · rw [e2]; simp only [PpsSyn.state, PpsExt.fields]
      · rw [hl, e3]; simp only [encPps, encOpt, List.append_assoc]
      · rw [e3] at hmd; simpa only [encOpt, Option.isSome] using hmd
    · exact Or.inr ⟨e0, hd, t, m, rest, hok, e1, e2, by rw [hl, e3]; simp only [List.append_assoc], e4⟩

end H264
