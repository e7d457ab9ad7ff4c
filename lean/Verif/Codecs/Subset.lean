import Verif.Codecs.Slice
import Verif.Model.Subset
import Verif.Spec.Syntax6
import Verif.Props.Pps

/-
Codec lemmas for the SPS SVC extension, subset SPS and SPS extension parsers.
-/

namespace H264
open Prog

theorem codec_fourSe : Codec parseFourSe (fun x => encSE x.1 ++ encSE x.2.1 ++ encSE x.2.2.1 ++ encSE x.2.2.2)
    (fun x => seRange x.1 ∧ seRange x.2.1 ∧ seRange x.2.2.1 ∧ seRange x.2.2.2) := by
  unfold parseFourSe
  refine Codec.congr (
    rd (fun x : Int × Int × Int × Int => x.1) ← Codec.se;
    rd (fun x : Int × Int × Int × Int => x.2.1) ← Codec.se;
    rd (fun x : Int × Int × Int × Int => x.2.2.1) ← Codec.se;
    rd (fun x : Int × Int × Int × Int => x.2.2.2) ← Codec.se;
    Codec.ret _) ?_ ?_
  · rintro ⟨a, b, d, e⟩; simp [seRange]
  · rintro ⟨a, b, d, e⟩ _; simp

theorem codec_refChroma (cat : Nat) : Codec (parseRefChroma cat)
    (fun x => encIf (cat > 0) (encU 1 x.1 ++ encU 2 x.2))
    (fun x => if cat > 0 then x.1 < 2 ∧ x.2 < 4 else x = (0, 0)) := by
  unfold parseRefChroma
  refine Codec.congr (Codec.optE (
    rd Prod.fst ← Codec.u';
    rd Prod.snd ← Codec.u';
    Codec.ret _)) ?_ ?_
  · rintro ⟨a, b⟩; simp
  · rintro ⟨a, b⟩ _; simp

theorem codec_spsSvcExt (cat : Nat) : Codec (parseSpsSvcExt cat) encSpsSvcExt (SpsSvcExt.Ok cat) := by
  unfold parseSpsSvcExt
  refine Codec.congr (
    rd SpsSvcExt.inter_layer_deblocking_filter_control_present_flag ← Codec.u';
    rd SpsSvcExt.extended_spatial_scalability_idc ← Codec.u';
    rd SpsSvcExt.chroma_phase_x_plus1_flag ← Codec.optE Codec.u';
    rd SpsSvcExt.chroma_phase_y_plus1 ← Codec.optE Codec.u';
    rd (fun e : SpsSvcExt => ((e.seq_ref_layer_chroma_phase_x_plus1_flag, e.seq_ref_layer_chroma_phase_y_plus1),
      (e.seq_scaled_ref_layer_left_offset, e.seq_scaled_ref_layer_top_offset, e.seq_scaled_ref_layer_right_offset,
       e.seq_scaled_ref_layer_bottom_offset))) ← Codec.optE (
        rd Prod.fst ← codec_refChroma cat; rd Prod.snd ← codec_fourSe; Codec.ret _);
    rd SpsSvcExt.seq_tcoeff_level_prediction_flag ← Codec.u';
    rd SpsSvcExt.adaptive_tcoeff_level_prediction_flag ← Codec.optE Codec.u';
    rd SpsSvcExt.slice_header_restriction_flag ← Codec.u';
    Codec.ret _) ?_ ?_
  · intro e
    constructor
    · rintro ⟨h1, h2, h3, h4, h5, h6, h7, h8, h9⟩
      have hc : e.ChromaArrayType = cat := by rw [h9]
      clear h9
      subst hc
      refine ⟨rfl, h1, h2, h3, h4, ?_, ?_, h6, h7, h8⟩
      · dsimp only at h5
        split at h5
        · replace h5 := h5.1
          split at h5
          · rw [if_pos ⟨‹_›, ‹_›⟩]; exact h5
          · rw [if_neg (by omega)]; simpa using h5
        · rw [if_neg (by omega)]; simp only [Prod.mk.injEq] at h5; exact ⟨h5.1.1, h5.1.2⟩
      · dsimp only at h5
        split at h5
        · rw [if_pos ‹_›]; exact h5.2.1
        · rw [if_neg ‹_›]; simp only [Prod.mk.injEq] at h5; exact h5.2
    · rintro ⟨rfl, h1, h2, h3, h4, h5, h5', h6, h7, h8⟩
      refine ⟨h1, h2, h3, h4, ?_, h6, h7, h8, rfl⟩
      dsimp only
      split
      · rw [if_pos ‹_›] at h5'
        refine ⟨?_, h5', rfl⟩
        split
        · rw [if_pos ⟨‹_›, ‹_›⟩] at h5; exact h5
        · rw [if_neg (by omega)] at h5; rw [h5.1, h5.2]
      · rw [if_neg ‹_›] at h5'
        rw [if_neg (by omega)] at h5
        obtain ⟨a, b, d, f⟩ := h5'
        rw [h5.1, h5.2, a, b, d, f]
  · rintro e ⟨rfl, _⟩
    unfold encSpsSvcExt
    simp only [List.append_assoc, List.append_nil]

theorem codec_alpha (f : Nat) : Codec (parseAlpha f)
    (fun x => encIf (f ≠ 0) (encUE x.1 ++ encU 1 x.2.1 ++ encU (x.1 + 9) x.2.2.1 ++ encU (x.1 + 9) x.2.2.2))
    (fun x => if f ≠ 0 then x.1 ≤ 4 ∧ x.2.1 < 2 ∧ x.2.2.1 < 2 ^ (x.1 + 9) ∧ x.2.2.2 < 2 ^ (x.1 + 9) else x = (0, 0, 0, 0)) := by
  unfold parseAlpha
  refine Codec.congr (Codec.optE (
    rd (fun x : Nat × Nat × Nat × Nat => x.1) as d hd ← Codec.ueIn (by decide);
    rd (fun x : Nat × Nat × Nat × Nat => x.2.1) ← Codec.u';
    rd (fun x : Nat × Nat × Nat × Nat => x.2.2.1) ← Codec.u' (by omega) (by omega);
    rd (fun x : Nat × Nat × Nat × Nat => x.2.2.2) ← Codec.u' (by omega) (by omega);
    Codec.ret _)) ?_ ?_
  · rintro ⟨a, b, d, e⟩; simp
  · rintro ⟨a, b, d, e⟩ _; simp

theorem codec_spsExtData : Codec parseSpsExtData encSpsExt SpsExt.Ok := by
  unfold parseSpsExtData
  refine Codec.congr (
    rd SpsExt.seq_parameter_set_id ← Codec.ueIn (by decide);
    rd SpsExt.aux_format_idc ← Codec.ue;
    rd (fun e : SpsExt => (e.bit_depth_aux_minus8, e.alpha_incr_flag, e.alpha_opaque_value, e.alpha_transparent_value)) ←
      codec_alpha _;
    rd SpsExt.additional_extension_flag ← Codec.u';
    Codec.ret _) ?_ ?_
  · intro e
    constructor
    · rintro ⟨h1, h2, h3, h4, _⟩
      refine ⟨h1.2, h2, ?_, h4⟩
      split at h3
      · rw [if_pos ‹_›]; exact h3
      · rw [if_neg ‹_›]; simpa using h3
    · rintro ⟨h1, h2, h3, h4⟩
      refine ⟨⟨Nat.zero_le _, h1⟩, h2, ?_, h4, rfl⟩
      dsimp only
      split at h3
      · rw [if_pos ‹_›]; exact h3
      · rw [if_neg ‹_›]; simpa using h3
  · intro e _
    unfold encSpsExt
    simp only [List.append_assoc, List.append_nil]

theorem spsExt_iff (nd : Bool) (s : LSt) (d : SpsExt) :
    (∃ s', runL nd parseSpsExt s = .ok d s') ↔ ∃ s', runL nd parseSpsExtData s = .ok d s' := by
  unfold parseSpsExt
  constructor
  · rintro ⟨s', h⟩
    rw [runL_bind_ok] at h
    obtain ⟨e, s1, h1, h2⟩ := h
    obtain ⟨s2, h3⟩ := runL_attempt_trailing nd e s1
    rw [h3] at h2
    simp only [Out.ok.injEq] at h2
    exact ⟨s1, h2.1 ▸ h1⟩
  · rintro ⟨s', h⟩
    obtain ⟨s2, h3⟩ := runL_attempt_trailing nd d s'
    exact ⟨s2, runL_bind_ok.mpr ⟨d, s', h, h3⟩⟩

/-! ### Trailing bits do not depend on the build mode -/

/-- The execution is identical in both build modes, including the state after a failure. -/
def ModeEq {α : Type} (p : Prog α) : Prop := ∀ s, runL true p s = runL false p s

theorem ModeEq.u (n : Nat) : ModeEq (Prog.u n) := by intro s; rw [runL_u, runL_u]
theorem ModeEq.guard (c : Prop) [Decidable c] : ModeEq (Prog.guard c) := by intro s; rw [runL_guard, runL_guard]
theorem ModeEq.bind {α β : Type} {p : Prog α} {f : α → Prog β} (hp : ModeEq p) (hf : ∀ a, ModeEq (f a)) :
    ModeEq (p >>= f) := by
  intro s
  rw [runL_bind, runL_bind, hp s]
  cases runL false p s with
  | ok a s1 => exact hf a s1
  | null _ => rfl
  | bad _ => rfl
theorem ModeEq.attempt {α : Type} {p : Prog α} (h : ModeEq p) : ModeIndep p.attempt := by
  intro s
  rw [runL_attempt, runL_attempt, h s]
  exact ModeIndep.same_refl _

theorem modeEq_trailingLoop (n : Nat) : ModeEq (trailingLoop n) := by
  induction n with
  | zero => exact fun _ => rfl
  | succ n ih =>
    refine ModeEq.bind (fun _ => rfl) (fun al => ?_)
    split
    · exact fun _ => rfl
    · exact ModeEq.bind (ModeEq.u _) (fun b => ModeEq.bind (ModeEq.guard _) (fun _ => ih))
theorem modeEq_trailing : ModeEq rbspTrailingBits :=
  ModeEq.bind (ModeEq.u _) (fun _ => ModeEq.bind (ModeEq.guard _) (fun _ =>
    ModeEq.bind (fun _ => rfl) (fun _ => modeEq_trailingLoop _)))
theorem mode_attempt_trailing : ModeIndep rbspTrailingBits.attempt := modeEq_trailing.attempt
macro_rules | `(tactic| mode_step) => `(tactic| with_reducible exact mode_attempt_trailing)

theorem safe_spsSvcExt (cat : Nat) : Safe (parseSpsSvcExt cat) := by
  unfold parseSpsSvcExt parseRefChroma parseFourSe; safe
theorem mode_spsSvcExt (cat : Nat) : ModeIndep (parseSpsSvcExt cat) := by
  unfold parseSpsSvcExt parseRefChroma parseFourSe; modeindep
theorem safe_spsExt : Safe parseSpsExt := by unfold parseSpsExt parseSpsExtData parseAlpha; safe
theorem mode_spsExt : ModeIndep parseSpsExt := by unfold parseSpsExt parseSpsExtData parseAlpha; modeindep

/-! ### The subset SPS -/

/-- A bit as a number. -/
def bitNat (b : Bool) : Nat := if b then 1 else 0

theorem encU1_bitNat (b : Bool) : encU 1 (bitNat b) = [b] := by cases b <;> decide

theorem encU1_flatMap (d : List Bool) : (d.map bitNat).flatMap (encU 1) = d := by
  induction d with
  | nil => rfl
  | cons a t ih => rw [List.map_cons, List.flatMap_cons, ih, encU1_bitNat]; rfl

theorem runL_ext2Step (nd : Bool) (l : List Bool) (c : Nat) : runL nd parseExt2Step ⟨l, c⟩ =
    match moreData l, l with
    | true, a :: t => .ok (some (bitNat a)) ⟨t, c⟩
    | _, _ => .ok none ⟨l, c⟩ := by
  unfold parseExt2Step
  rw [runL_bind, runL_more]
  simp only [Out.bind]
  cases hm : moreData l with
  | false => rfl
  | true =>
    rw [if_pos rfl]
    cases l with
    | nil => simp [moreData] at hm
    | cons a t =>
      have := (Codec.u' (n := 1)).parse_append nd (a := bitNat a) (by cases a <;> decide) t c
      rw [encU1_bitNat] at this
      rw [runL_bind]
      show (runL nd (u 1) ⟨[a] ++ t, c⟩).bind _ = _
      rw [this]
      rfl

theorem runL_ext2N (nd : Bool) : ∀ (n : Nat) (l : List Bool) (c : Nat), l.length < n →
    ∃ d r, l = d ++ r ∧ runL nd (parseExt2Step.loopN n) ⟨l, c⟩ = .ok (d.map bitNat) ⟨r, c⟩ ∧ moreData r = false ∧
      ∀ d1 d2, d = d1 ++ d2 → d2 ≠ [] → moreData (d2 ++ r) = true := by
  intro n
  induction n with
  | zero => intro l c h; omega
  | succ n ih =>
    intro l c h
    simp only [Prog.loopN]
    rw [runL_bind, runL_ext2Step]
    cases hm : moreData l with
    | false =>
      refine ⟨[], l, rfl, rfl, hm, ?_⟩
      intro d1 d2 h1 h2
      rw [eq_comm, List.append_eq_nil_iff] at h1
      exact absurd h1.2 h2
    | true =>
      cases l with
      | nil => simp [moreData] at hm
      | cons a t =>
        obtain ⟨d, r, h1, h2, h3, h4⟩ := ih t c (by simp only [List.length_cons] at h; omega)
        refine ⟨a :: d, r, by rw [h1]; rfl, ?_, h3, ?_⟩
        · simp only [Out.bind]
          rw [runL_bind, h2]
          rfl
        · intro d1 d2 e1 e2
          cases d1 with
          | nil =>
            simp only [List.nil_append] at e1
            rw [← e1, List.cons_append, ← h1]; exact hm
          | cons b d1 =>
            simp only [List.cons_append, List.cons.injEq] at e1
            exact h4 d1 d2 e1.2 e2

/-- The data flags read: everything up to the trailing bits if there are any, otherwise everything. -/
theorem runL_ext2Loop (nd : Bool) (l : List Bool) (c : Nat) :
    ∃ d r, l = d ++ r ∧ runL nd parseExt2Step.loop ⟨l, c⟩ = .ok (d.map bitNat) ⟨r, c⟩ ∧
      (r = [] ∨ ∃ k, k ≤ 7 ∧ r = trailingBits k) ∧ ∀ p k, k ≤ 7 → l = p ++ trailingBits k → d = p := by
  obtain ⟨d, r, h1, h2, h3, h4⟩ := runL_ext2N nd (l.length + 1) l c (by omega)
  refine ⟨d, r, h1, ?_, (Props.moreData_false r).mp h3, ?_⟩
  · unfold Prog.loop
    rw [runL_bind, runL_remaining]
    exact h2
  · intro p k hk hl
    rw [h1] at hl
    rcases List.append_eq_append_iff.mp hl with ⟨x, e1, e2⟩ | ⟨x, e1, e2⟩
    · -- p = d ++ x, r = x ++ trailing
      rcases (Props.moreData_false r).mp h3 with h0 | ⟨j, _, hj⟩
      · rw [h0] at e2; simp [trailingBits] at e2
      · have := Props.trailingBits_unique (p := []) (j := j) (q := x) (k := k) (by rw [← e2, ← hj]; rfl)
        rw [e1, ← this.1, List.append_nil]
    · -- d = p ++ x, trailing = x ++ r
      by_cases hx : x = []
      · rw [e1, hx, List.append_nil]
      · have := h4 p x e1 hx
        rw [← e2] at this
        have h5 := (Props.moreData_false (trailingBits k)).mpr (Or.inr ⟨k, hk, rfl⟩)
        rw [h5] at this; cases this

theorem codec_subsetExtSvc {p cat : Nat} (hp : svcProfile p) : Codec (parseSubsetExt p cat)
    (fun x => encOpt encSpsSvcExt x.1 ++ encU 1 x.2.1)
    (fun x => (∃ e, x.1 = some e ∧ e.Ok cat) ∧ x.2.1 < 2 ∧ x.2.2 = (0, 0)) := by
  unfold svcProfile at hp
  unfold parseSubsetExt
  rw [if_pos hp]
  refine Codec.congr (
    Codec.bind (fun x : Option SpsSvcExt × Nat × Nat × Nat => x.1.getD {}) (codec_spsSvcExt cat) (fun e _ =>
      rd (fun x : Option SpsSvcExt × Nat × Nat × Nat => x.2.1) ← Codec.u';
      Codec.ret _) (by intro a b h; rw [h.2]; rfl)) ?_ ?_
  · rintro ⟨e, f, g⟩
    constructor
    · rintro ⟨h1, h2, h3⟩
      simp only [Prod.mk.injEq] at h3
      refine ⟨⟨_, h3.1, h1⟩, h2, h3.2.2⟩
    · rintro ⟨⟨e', rfl, h1⟩, h2, rfl⟩
      exact ⟨h1, h2, rfl⟩
  · rintro ⟨e, f, g⟩ ⟨⟨e', rfl, h1⟩, _⟩
    simp [encOpt]

theorem safe_ext2Loop : Safe parseExt2Step.loop := by
  intro nd s e h
  obtain ⟨d, r, _, h2, _⟩ := runL_ext2Loop nd s.rem s.cnt
  rw [h2] at h; cases h
theorem mode_ext2Loop : ModeIndep parseExt2Step.loop := by
  unfold parseExt2Step
  have := mode_more
  modeindep

theorem safe_subsetExt (p cat : Nat) : Safe (parseSubsetExt p cat) := by
  unfold parseSubsetExt
  have := safe_spsSvcExt cat
  safe

theorem safe_subsetSps : Safe parseSubsetSps := by
  unfold parseSubsetSps parseExt2
  have := safe_ext2Loop
  refine Safe.bind safe_spsData (fun d => Safe.bind (safe_subsetExt _ _) (fun _ => ?_))
  safe

/-- What `ParseSubsetSps` does, after the SPS data. -/
theorem runL_subsetSps (nd : Bool) (s : LSt) (st : SubsetSps) :
    (∃ s', runL nd parseSubsetSps s = .ok st s') ↔
      ∃ s1 e s2, runL nd parseSpsData s = .ok st.seq_parameter_set_data s1 ∧
        runL nd (parseSubsetExt st.seq_parameter_set_data.profile_idc (getChromaArrayType st.seq_parameter_set_data)) s1 =
          .ok e s2 ∧
        e = (st.seq_parameter_set_svc_extension, st.svc_vui_parameters_present_flag, st.bit_equal_to_one,
          st.mvc_vui_parameters_present_flag) ∧
        ∃ s3, runL nd parseExt2 s2 = .ok (st.additional_extension2_flag, st.additional_extension2_data_flag) s3 := by
  unfold parseSubsetSps
  constructor
  · rintro ⟨s', h⟩
    rw [runL_bind_ok] at h
    obtain ⟨d, s1, h1, h⟩ := h
    rw [runL_bind_ok] at h
    obtain ⟨e, s2, h2, h⟩ := h
    rw [runL_bind_ok] at h
    obtain ⟨x, s3, h3, h⟩ := h
    obtain ⟨s4, h4⟩ := runL_attempt_trailing nd (SubsetSps.mk d e.1 e.2.1 e.2.2.1 e.2.2.2 x.1 x.2) s3
    rw [h4] at h
    simp only [Out.ok.injEq] at h
    obtain ⟨rfl, _⟩ := h
    exact ⟨s1, e, s2, h1, h2, rfl, s3, h3⟩
  · rintro ⟨s1, e, s2, h1, h2, rfl, s3, h3⟩
    obtain ⟨s4, h4⟩ := runL_attempt_trailing nd st s3
    exact ⟨s4, runL_bind_ok.mpr ⟨_, s1, h1, runL_bind_ok.mpr ⟨_, s2, h2, runL_bind_ok.mpr ⟨_, s3, h3, h4⟩⟩⟩⟩

theorem parseSubsetExt_none {p : Nat} (cat : Nat) (h1 : ¬ svcProfile p) (h2 : ¬ mvcProfile p) (h3 : ¬ mvcdProfile p) :
    parseSubsetExt p cat = Prog.ret (none, 0, 0, 0) := by
  unfold svcProfile mvcProfile mvcdProfile at *
  unfold parseSubsetExt
  rw [if_neg h1, if_neg h2, if_neg (by omega), if_neg (by omega)]
  rfl

/-- A returned subset SPS is in range. -/
theorem subsetSps_ranges (nd : Bool) {s : LSt} {st : SubsetSps} {s' : LSt} (h : runL nd parseSubsetSps s = .ok st s') :
    st.InRange := by
  obtain ⟨s1, e, s2, h1, h2, h3, _⟩ := (runL_subsetSps nd s st).mp ⟨s', h⟩
  have hr := spsData_ranges nd h1
  have hd : st.seq_parameter_set_data.InRange := ⟨hr.1, hr.2.1⟩
  refine ⟨hd, ?_⟩
  by_cases hp : svcProfile st.seq_parameter_set_data.profile_idc
  · rw [if_pos hp]
    obtain ⟨⟨⟨x, hx, ok⟩, _⟩, _⟩ := (codec_subsetExtSvc hp nd s1.rem s1.cnt e s2).mp h2
    rw [h3] at hx
    rw [getChromaArrayType_eq hd] at ok
    exact ⟨x, hx, ok⟩
  · rw [if_neg hp]
    have : e.1 = none := by
      unfold parseSubsetExt at h2
      unfold svcProfile at hp
      rw [if_neg hp] at h2
      revert h2
      split
      · rw [runL_bind_ok]; rintro ⟨_, _, _, h⟩
        rw [runL_bind_ok] at h; obtain ⟨_, _, _, h⟩ := h
        simp only [Prog.pure_eq, runL_ret, Out.ok.injEq] at h; rw [← h.1]
      · split
        · rw [runL_bind_ok]; rintro ⟨_, _, _, h⟩
          simp only [Prog.pure_eq, runL_ret, Out.ok.injEq] at h; rw [← h.1]
        · split
          · rw [runL_bind_ok]; rintro ⟨_, _, _, h⟩
            simp only [Prog.pure_eq, runL_ret, Out.ok.injEq] at h; rw [← h.1]
          · simp only [Prog.pure_eq, runL_ret, Out.ok.injEq]; rintro ⟨rfl, _⟩; rfl
    rw [h3] at this
    exact this

end H264
