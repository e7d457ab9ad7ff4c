import Verif.Codecs.RefPic
import Verif.Codecs.Pps
import Verif.Model.Slice
import Verif.Spec.Syntax5

/-
Codec lemmas for the slice header parser.
-/

namespace H264
open Prog

theorem Codec.lift {α β : Type} {r : Res α} {a : α} (h : r = .val a) {f : α → Prog β} {e : β → List Bool}
    {V : β → Prop} (hf : Codec (f a) e V) : Codec (Prog.lift r >>= f) e V := by
  subst h; exact hf

theorem Safe.liftBind {α β : Type} {r : Res α} {a : α} (h : r = .val a) {f : α → Prog β} (hf : Safe (f a)) :
    Safe (Prog.lift r >>= f) := by
  subst h; exact hf

theorem codec_unimplNull {α : Type} {e : α → List Bool} {V : α → Prop} :
    Codec (Prog.unimpl >>= fun _ => (Prog.null : Prog α)) e (fun a => V a ∧ False) := by
  intro nd l c a s'
  constructor
  · intro h; simp [runL_bind_ok] at h
  · rintro ⟨⟨_, h⟩, _⟩; exact absurd h id

theorem getChromaArrayType_eq {s : SpsData} (h : s.InRange) : getChromaArrayType s = chromaArrayType s.toSpsHead := by
  have := h.1.separate_colour_plane_flag
  unfold getChromaArrayType chromaArrayType
  by_cases h0 : s.separate_colour_plane_flag = 0
  · rw [if_pos h0, if_neg (by omega)]
  · rw [if_neg h0, if_pos (by omega)]

theorem changeCycleBits_spec {P R : Nat} (hP : 0 < P) (hR : 0 < R) (k : Nat) :
    P + R ≤ R * 2 ^ k ↔ changeCycleBits P R ≤ k := by
  have hq : 1 ≤ (P + R - 1) / R := by rw [Nat.le_div_iff_mul_le hR]; omega
  unfold changeCycleBits
  rw [Nat.succ_le_iff, Nat.log2_lt (by omega)]
  rw [Nat.div_lt_iff_lt_mul hR, Nat.mul_comm (2 ^ k) R]
  omega

theorem changeCycleBits_eq {P R : Nat} (hP : 0 < P) (hR : 0 < R) :
    ceilLog2 ((P + R - 1) / R + 1) = changeCycleBits P R := by
  have hq : 1 ≤ (P + R - 1) / R := by rw [Nat.le_div_iff_mul_le hR]; omega
  unfold ceilLog2 changeCycleBits
  rw [if_neg (by omega), Nat.add_sub_cancel]

theorem cycleLen_eq {s : SpsData} {p : Pps} (hs : s.InRange) (hp : p.InRange) :
    sliceGroupChangeCycleLen s.pic_width_in_mbs_minus1 s.pic_height_in_map_units_minus1
      p.slice_group_change_rate_minus1 = .val (cycleBits s p) ∧ 1 ≤ cycleBits s p ∧ cycleBits s p ≤ 32 := by
  have hw := hs.2.width
  have hh := hs.2.height
  have hr : p.slice_group_change_rate_minus1 < 2 ^ 32 - 1 := by
    have := hp.groups.change
    by_cases hc : p.num_slice_groups_minus1 > 0 ∧ 3 ≤ p.slice_group_map_type ∧ p.slice_group_map_type ≤ 5
    · rw [if_pos hc] at this; exact this.2
    · rw [if_neg hc] at this; rw [this.2]; decide
  have hP : (s.pic_width_in_mbs_minus1 + 1) * (s.pic_height_in_map_units_minus1 + 1) ≤ 1056 * 1056 :=
    Nat.mul_le_mul (by omega) (by omega)
  have hP0 : 0 < (s.pic_width_in_mbs_minus1 + 1) * (s.pic_height_in_map_units_minus1 + 1) :=
    Nat.mul_pos (by omega) (by omega)
  unfold cycleBits
  refine ⟨?_, ?_, ?_⟩
  · unfold sliceGroupChangeCycleLen
    simp only []
    rw [add32_eq (by omega), add32_eq (by omega), add32_eq (by omega), mul32_eq (by omega),
      if_neg (by omega), changeCycleBits_eq hP0 (by omega)]
  · unfold changeCycleBits; omega
  · rw [← changeCycleBits_spec hP0 (by omega)]
    generalize (s.pic_width_in_mbs_minus1 + 1) * (s.pic_height_in_map_units_minus1 + 1) = P at hP hP0
    have : (p.slice_group_change_rate_minus1 + 1) * 2 ^ 32 = p.slice_group_change_rate_minus1 * 2 ^ 32 + 2 ^ 32 := by
      omega
    rw [this]
    omega

theorem codec_sliceStart : Codec parseSliceStart (fun x => encUE x.1 ++ encUE x.2.1 ++ encUE x.2.2)
    (fun x => x.1 ≤ 139263 ∧ x.2.1 ≤ 9 ∧ x.2.2 ≤ 255) := by
  unfold parseSliceStart
  refine Codec.congr (
    rd (fun x : Nat × Nat × Nat => x.1) ← Codec.ueIn (by decide);
    rd (fun x : Nat × Nat × Nat => x.2.1) ← Codec.ueIn (by decide);
    rd (fun x : Nat × Nat × Nat => x.2.2) ← Codec.ueIn (by decide);
    Codec.ret _) ?_ ?_
  · rintro ⟨a, b, d⟩; simp
  · rintro ⟨a, b, d⟩ _; simp

theorem codec_fieldPic (f : Nat) : Codec (parseFieldPic f)
    (fun x => encIf (f = 0) (encU 1 x.1 ++ encIf (x.1 = 1) (encU 1 x.2)))
    (fun x => if f = 0 then x.1 < 2 ∧ (if x.1 = 1 then x.2 < 2 else x.2 = 0) else x = (0, 0)) := by
  unfold parseFieldPic
  refine Codec.congr (Codec.optE (
    rd Prod.fst as a ha ← Codec.u';
    rd Prod.snd ← Codec.optF ha (fun _ => Codec.u');
    Codec.ret _)) ?_ ?_
  · rintro ⟨a, b⟩; simp
  · rintro ⟨a, b⟩ _; simp

theorem codec_poc0 {t l b f : Nat} (hl : l ≤ 12) (hb : b < 2) : Codec (parsePoc0 t l b f)
    (fun x => encIf (t = 0) (encU (l + 4) x.1 ++ encIf (b = 1 ∧ f = 0) (encSE x.2)))
    (fun x => if t = 0 then x.1 < 2 ^ (l + 4) ∧ (if b = 1 ∧ f = 0 then seRange x.2 else x.2 = 0) else x = (0, 0)) := by
  unfold parsePoc0
  have hc : (b ≠ 0 ∧ f = 0) ↔ (b = 1 ∧ f = 0) := by omega
  rw [add32_eq (by omega)]
  refine Codec.congr (Codec.optE (
    rd Prod.fst ← Codec.u' (by omega) (by omega);
    rd Prod.snd ← Codec.optE Codec.se;
    Codec.ret _)) ?_ ?_
  · rintro ⟨x, y⟩; simp only [hc, and_true, seRange]
  · rintro ⟨x, y⟩ _; simp only [hc, encIf, List.append_nil]

theorem codec_one : Codec (do let d ← se; pure [d]) (fun l => l.flatMap encSE) (fun l => ∃ v, l = [v] ∧ seRange v) := by
  intro nd l c a s'
  rw [runL_bind_ok]
  constructor
  · rintro ⟨v, s1, h1, h2⟩
    obtain ⟨hv, r, rfl, rfl⟩ := (Codec.se nd l c v s1).mp h1
    simp only [Prog.pure_eq, runL_ret, Out.ok.injEq] at h2
    obtain ⟨rfl, rfl⟩ := h2
    exact ⟨⟨v, rfl, hv⟩, r, by simp, rfl⟩
  · rintro ⟨⟨v, rfl, hv⟩, r, rfl, rfl⟩
    exact ⟨v, ⟨r, c⟩, (Codec.se nd _ c v _).mpr ⟨hv, r, by simp, rfl⟩, rfl⟩

theorem codec_poc1 {t z b f : Nat} (hb : b < 2) : Codec (parsePoc1 t z b f)
    (fun x => encIf (t = 1 ∧ z = 0) (x.flatMap encSE))
    (fun x => x.length = (if t = 1 ∧ z = 0 then (if b = 1 ∧ f = 0 then 2 else 1) else 0) ∧ ∀ v ∈ x, seRange v) := by
  unfold parsePoc1
  have hc : (b ≠ 0 ∧ f = 0) ↔ (b = 1 ∧ f = 0) := by omega
  refine Codec.congr (Codec.optE (
    Codec.bind (fun l : List Int => l.headD 0) Codec.se (fun d _ =>
    Codec.bind (fun l : List Int => l.tail) (Codec.optE codec_one) (fun l _ => Codec.ret _)
      (by intro a b h; rw [h]; rfl))
      (by intro a b h; rw [h.2]; rfl))) ?_ ?_
  · intro x
    by_cases h1 : t = 1 ∧ z = 0
    · rw [if_pos h1, if_pos h1]
      by_cases h2 : b = 1 ∧ f = 0
      · rw [if_pos h2, if_pos (hc.mpr h2)]
        constructor
        · rintro ⟨ha, ⟨v, hv, hv'⟩, hx⟩
          match x, hv, hx with
          | [], hv, hx => simp at hv
          | a :: y, hv, hx =>
            simp only [List.tail_cons] at hv
            subst hv
            refine ⟨rfl, ?_⟩
            intro w hw
            simp only [List.mem_cons, List.not_mem_nil, or_false] at hw
            rcases hw with rfl | rfl
            · exact ha
            · exact hv'
        · rintro ⟨hl, hx⟩
          match x, hl with
          | [a, d], _ =>
            exact ⟨hx a (by simp), ⟨d, rfl, hx d (by simp)⟩, rfl⟩
      · rw [if_neg h2, if_neg (fun h => h2 (hc.mp h))]
        constructor
        · rintro ⟨ha, hv, hx⟩
          match x, hv, hx with
          | [], hv, hx => simp at hx
          | a :: y, hv, hx =>
            simp only [List.tail_cons] at hv
            subst hv
            refine ⟨rfl, ?_⟩
            intro w hw
            simp only [List.mem_cons, List.not_mem_nil, or_false] at hw
            subst hw; exact ha
        · rintro ⟨hl, hx⟩
          match x, hl with
          | [a], _ =>
            exact ⟨hx a (by simp), rfl, rfl⟩
    · rw [if_neg h1, if_neg h1]
      constructor
      · rintro rfl; exact ⟨rfl, by simp⟩
      · rintro ⟨h, _⟩; exact List.length_eq_zero_iff.mp h
  · rintro x ⟨hl, _⟩
    by_cases h1 : t = 1 ∧ z = 0
    · rw [if_pos h1] at hl
      simp only [encIf, if_pos h1]
      by_cases h2 : b = 1 ∧ f = 0
      · rw [if_pos h2] at hl
        rw [if_pos (hc.mpr h2)]
        match x, hl with
        | [a, d], _ => simp
      · rw [if_neg h2] at hl
        rw [if_neg (fun h => h2 (hc.mp h))]
        match x, hl with
        | [a], _ => simp
    · simp only [encIf, if_neg h1]

theorem codec_numRef {t d0 d1 : Nat} (ht : t ≤ 9) : Codec (parseNumRef t d0 d1)
    (fun x => encU 1 x.1 ++ encIf (x.1 = 1) (encUE x.2.1 ++ encIf (t % 5 = 1) (encUE x.2.2)))
    (fun x => x.1 < 2 ∧ (if x.1 = 1 then x.2.1 ≤ 31 ∧ (if t % 5 = 1 then x.2.2 ≤ 31 else x.2.2 = 0)
      else x.2.1 = d0 ∧ x.2.2 = d1)) := by
  unfold parseNumRef
  have hB : isB t ↔ t % 5 = 1 := by unfold isB; omega
  refine Codec.congr (
    Codec.bind (fun x : Nat × Nat × Nat => x.1) (Codec.u' (n := 1)) (fun o ho => Codec.ite
      (fun _ =>
        rd (fun x : Nat × Nat × Nat => x.2.1) ← Codec.ueIn (by decide);
        rd (fun x : Nat × Nat × Nat => x.2.2) ← Codec.optE (Codec.ueIn (by decide));
        Codec.ret _)
      (fun _ => Codec.ret _)) ?_) ?_ ?_
  · intro a b h
    by_cases h1 : a ≠ 0
    · rw [if_pos h1] at h; rw [h.2.2]
    · rw [if_neg h1] at h; rw [h]
  · rintro ⟨o, a, b⟩
    simp only [hB]
    constructor
    · rintro ⟨h1, h2⟩
      refine ⟨h1, ?_⟩
      by_cases ho : o = 1
      · rw [if_pos (by omega)] at h2; rw [if_pos ho]
        refine ⟨h2.1.2, ?_⟩
        have := h2.2.1
        by_cases hb : t % 5 = 1
        · rw [if_pos hb] at this ⊢; exact this.2
        · rw [if_neg hb] at this ⊢; exact this
      · rw [if_neg (by omega)] at h2; rw [if_neg ho]
        simpa using h2
    · rintro ⟨h1, h2⟩
      refine ⟨h1, ?_⟩
      by_cases ho : o = 1
      · rw [if_pos (by omega)]; rw [if_pos ho] at h2
        refine ⟨⟨Nat.zero_le _, h2.1⟩, ?_, trivial⟩
        have := h2.2
        by_cases hb : t % 5 = 1
        · rw [if_pos hb] at this ⊢; exact ⟨Nat.zero_le _, this⟩
        · rw [if_neg hb] at this ⊢; exact this
      · rw [if_neg (by omega)]; rw [if_neg ho] at h2
        simpa using h2
  · rintro ⟨o, a, b⟩ ⟨h1, h2⟩
    simp only [encIf]
    by_cases ho : o = 1
    · rw [if_pos (by omega), if_pos ho]; simp [hB]
    · rw [if_neg (by omega), if_neg ho]

theorem codec_sliceMod (ty t : Nat) : Codec (parseSliceMod ty t) encRefPicListMod
    (fun m => m.Ok t ∧ ty ≠ 20 ∧ ty ≠ 21) := by
  unfold parseSliceMod
  refine Codec.congr (Codec.ite (fun _ => codec_unimplNull (V := fun m : RefPicListMod => m.Ok t) (e := encRefPicListMod))
    (fun _ => codec_refPicListMod t)) ?_ ?_
  · intro m
    by_cases h : ty = 20 ∨ ty = 21
    · rw [if_pos h]
      exact ⟨fun h => h.2.elim, fun h' => by omega⟩
    · rw [if_neg h]
      exact ⟨fun h' => ⟨h', by omega⟩, fun h => h.1⟩
  · intro m _; split <;> rfl

theorem qpBound {b : Nat} (hb : b ≤ 6) : toI32 b = (b : Int) ∧ sint (6 * (b : Int)) = .val (6 * (b : Int)) ∧
    sint (-51 - 6 * (b : Int)) = .val (-51 - 6 * (b : Int)) ∧ sint (51 + 6 * (b : Int)) = .val (51 + 6 * (b : Int)) :=
  ⟨toI32_eq (by omega), sint_eq (by omega) (by omega), sint_eq (by omega) (by omega), sint_eq (by omega) (by omega)⟩

theorem codec_qpDelta {b : Nat} (hb : b ≤ 6) : Codec (parseQpDelta b) encSE
    (fun v => -(51 + 6 * (b : Int)) ≤ v ∧ v ≤ 51 + 6 * (b : Int)) := by
  unfold parseQpDelta
  obtain ⟨e1, e2, e3, e4⟩ := qpBound hb
  rw [e1]
  refine Codec.congr (
    Codec.bind (fun v => v) Codec.se (fun v _ =>
      Codec.lift e2 (Codec.lift e3 (Codec.guard (fun _ => Codec.lift e2 (Codec.lift e4 (Codec.guard (fun _ => Codec.ret v)))))))
      (by intro a b h; (repeat (replace h := And.right h)); exact h)) ?_ ?_
  · intro v
    constructor
    · rintro ⟨_, h1, h2, _⟩; omega
    · intro h; exact ⟨by omega, by omega, by omega, rfl⟩
  · intro v _; simp

theorem safe_qpDelta {b : Nat} (hb : b ≤ 6) : Safe (parseQpDelta b) := by
  unfold parseQpDelta
  obtain ⟨e1, e2, e3, e4⟩ := qpBound hb
  rw [e1]
  exact Safe.bind Safe.se (fun v => Safe.liftBind e2 (Safe.liftBind e3 (Safe.guardBind (fun _ =>
    Safe.liftBind e2 (Safe.liftBind e4 (Safe.guardBind (fun _ => Safe.ret _)))))))

theorem codec_switching {t : Nat} (ht : t ≤ 9) : Codec (parseSwitching t)
    (fun x => encIf (t % 5 = 3 ∨ t % 5 = 4) (encIf (t % 5 = 3) (encU 1 x.1) ++ encSE x.2))
    (fun x => if t % 5 = 3 ∨ t % 5 = 4 then (if t % 5 = 3 then x.1 < 2 else x.1 = 0) ∧ seRange x.2 else x = (0, 0)) := by
  unfold parseSwitching
  have h3 : isSP t ↔ t % 5 = 3 := by unfold isSP; omega
  have h4 : isSI t ↔ t % 5 = 4 := by unfold isSI; omega
  refine Codec.congr (Codec.optE (
    rd Prod.fst ← Codec.optE Codec.u';
    rd Prod.snd ← Codec.se;
    Codec.ret _)) ?_ ?_
  · rintro ⟨x, y⟩; simp only [h3, h4, and_true, seRange, Nat.pow_one]
  · rintro ⟨x, y⟩ _; simp only [h3, h4, encIf, List.append_nil]

theorem codec_twoSe : Codec (do let a ← se; let b ← se; pure (a, b)) (fun x => encSE x.1 ++ encSE x.2)
    (fun x => seRange x.1 ∧ seRange x.2) := by
  refine Codec.congr (
    rd Prod.fst ← Codec.se;
    rd Prod.snd ← Codec.se;
    Codec.ret _) ?_ ?_
  · rintro ⟨x, y⟩; simp [seRange]
  · rintro ⟨x, y⟩ _; simp

theorem codec_deblocking {f mx : Nat} (hf : f < 2) (hm : mx ≤ 6) : Codec (parseDeblocking f mx)
    (fun x => encIf (f = 1) (encUE x.1 ++ encIf (x.1 ≠ 1) (encSE x.2.1 ++ encSE x.2.2)))
    (fun x => if f = 1 then x.1 ≤ mx ∧ (if x.1 ≠ 1 then seRange x.2.1 ∧ seRange x.2.2 else x.2 = (0, 0))
      else x = (0, 0, 0)) := by
  unfold parseDeblocking
  refine Codec.congr (Codec.optF hf (fun _ =>
    rd Prod.fst ← Codec.ueIn (by omega);
    rd Prod.snd ← Codec.optE codec_twoSe;
    Codec.ret _)) ?_ ?_
  · rintro ⟨x, y⟩; simp
  · rintro ⟨x, y⟩ _; simp

theorem codec_changeCycle {s : SpsData} {p : Pps} (hs : s.InRange) (hp : p.InRange) : Codec (parseChangeCycle s p)
    (fun x => encIf (changeCyclePresent p) (encU (cycleBits s p) x.2.2.2))
    (fun x => if changeCyclePresent p then x.1 = s.pic_width_in_mbs_minus1 ∧ x.2.1 = s.pic_height_in_map_units_minus1 ∧
      x.2.2.1 = p.slice_group_change_rate_minus1 ∧ x.2.2.2 < 2 ^ cycleBits s p else x = (0, 0, 0, 0)) := by
  unfold parseChangeCycle
  obtain ⟨h1, h2, h3⟩ := cycleLen_eq hs hp
  refine Codec.congr (Codec.optE (Codec.lift h1 (
    rd (fun x : Nat × Nat × Nat × Nat => x.2.2.2) ← Codec.u' h2 h3;
    Codec.ret _))) ?_ ?_
  · rintro ⟨a, b, d, e⟩
    have : hasChangeCycle p ↔ changeCyclePresent p := Iff.rfl
    simp only [this, Prod.mk.injEq, and_true]
    by_cases hc : changeCyclePresent p
    · simp only [if_pos hc]
      constructor
      · rintro ⟨h, rfl, rfl, rfl⟩; exact ⟨rfl, rfl, rfl, h⟩
      · rintro ⟨rfl, rfl, rfl, h⟩; exact ⟨h, rfl, rfl, rfl⟩
    · simp only [if_neg hc]
  · rintro ⟨a, b, d, e⟩ _
    have : hasChangeCycle p ↔ changeCyclePresent p := Iff.rfl
    simp only [this, encIf, List.append_nil]

theorem safe_changeCycle {s : SpsData} {p : Pps} (hs : s.InRange) (hp : p.InRange) : Safe (parseChangeCycle s p) := by
  unfold parseChangeCycle
  refine Safe.opt (fun _ => Safe.liftBind (cycleLen_eq hs hp).1 ?_)
  safe

/-- The facts about the parameter sets the slice header relies on. -/
structure Ctx (s : SpsData) (p : Pps) : Prop where
  rs : s.InRange
  rp : p.InRange
  sep : s.separate_colour_plane_flag < 2
  frame : s.log2_max_frame_num_minus4 ≤ 12
  lsb : s.log2_max_pic_order_cnt_lsb_minus4 ≤ 12
  depth : s.bit_depth_luma_minus8 ≤ 6
  bottom : p.bottom_field_pic_order_in_frame_present_flag < 2
  redundant : p.redundant_pic_cnt_present_flag < 2
  entropy : p.entropy_coding_mode_flag < 2
  wp : p.weighted_pred_flag < 2
  deblocking : p.deblocking_filter_control_present_flag < 2

theorem Ctx.mk' {s : SpsData} {p : Pps} (hs : s.InRange) (hp : p.InRange) : Ctx s p where
  rs := hs
  rp := hp
  sep := hs.1.separate_colour_plane_flag
  frame := hs.2.log2_max_frame_num_minus4
  lsb := by have := hs.2.poc0; split at this <;> omega
  depth := hs.1.bit_depth_luma_minus8
  bottom := hp.bottom_field
  redundant := hp.redundant_pic_cnt_present_flag
  entropy := hp.entropy_coding_mode_flag
  wp := hp.weighted_pred_flag
  deblocking := hp.deblocking

/-- slice_header() after the first three elements, appended to the right. -/
def encSliceTail (s : SpsData) (p : Pps) (h : SliceHeader) : List Bool :=
  encIf (s.separate_colour_plane_flag = 1) (encU 2 h.colour_plane_id) ++ (
  encU (s.log2_max_frame_num_minus4 + 4) h.frame_num ++ (
  encIf (s.frame_mbs_only_flag = 0) (encU 1 h.field_pic_flag ++ encIf (h.field_pic_flag = 1) (encU 1 h.bottom_field_flag)) ++ (
  encIf (h.nal_unit_type = 5) (encUE h.idr_pic_id) ++ (
  encIf (s.pic_order_cnt_type = 0)
    (encU (s.log2_max_pic_order_cnt_lsb_minus4 + 4) h.pic_order_cnt_lsb ++
     encIf (p.bottom_field_pic_order_in_frame_present_flag = 1 ∧ h.field_pic_flag = 0)
       (encSE h.delta_pic_order_cnt_bottom)) ++ (
  encIf (s.pic_order_cnt_type = 1 ∧ s.delta_pic_order_always_zero_flag = 0) (h.delta_pic_order_cnt.flatMap encSE) ++ (
  encIf (p.redundant_pic_cnt_present_flag = 1) (encUE h.redundant_pic_cnt) ++ (
  encIf (h.slice_type % 5 = 1) (encU 1 h.direct_spatial_mv_pred_flag) ++ (
  encIf (h.slice_type % 5 = 0 ∨ h.slice_type % 5 = 3 ∨ h.slice_type % 5 = 1)
    (encU 1 h.num_ref_idx_active_override_flag ++
     encIf (h.num_ref_idx_active_override_flag = 1)
       (encUE h.num_ref_idx_l0_active_minus1 ++ encIf (h.slice_type % 5 = 1) (encUE h.num_ref_idx_l1_active_minus1))) ++ (
  encOpt encRefPicListMod h.ref_pic_list_modification ++ (
  encIf (weightsPresent p h.slice_type) (encOpt encPredWeightTable h.pred_weight_table) ++ (
  encIf (h.nal_ref_idc ≠ 0) (encOpt encDecRefPicMarking h.dec_ref_pic_marking) ++ (
  encIf (p.entropy_coding_mode_flag = 1 ∧ h.slice_type % 5 ≠ 2 ∧ h.slice_type % 5 ≠ 4) (encUE h.cabac_init_idc) ++ (
  encSE h.slice_qp_delta ++ (
  encIf (h.slice_type % 5 = 3 ∨ h.slice_type % 5 = 4)
    (encIf (h.slice_type % 5 = 3) (encU 1 h.sp_for_switch_flag) ++ encSE h.slice_qs_delta) ++ (
  encIf (p.deblocking_filter_control_present_flag = 1)
    (encUE h.disable_deblocking_filter_idc ++
     encIf (h.disable_deblocking_filter_idc ≠ 1)
       (encSE h.slice_alpha_c0_offset_div2 ++ encSE h.slice_beta_offset_div2)) ++ (
  encIf (changeCyclePresent p) (encU (cycleBits s p) h.slice_group_change_cycle)))))))))))))))))

theorem encSliceHeader_eq (s : SpsData) (p : Pps) (h : SliceHeader) : encSliceHeader s p h =
    encUE h.first_mb_in_slice ++ encUE h.slice_type ++ encUE h.pic_parameter_set_id ++ encSliceTail s p h := by
  unfold encSliceHeader encSliceTail
  simp only [List.append_assoc]

/-- The slice types, as remainders. -/
theorem sliceTypes {t : Nat} (ht : t ≤ 9) : (isB t ↔ t % 5 = 1) ∧ (isPSP t ↔ t % 5 = 0 ∨ t % 5 = 3) ∧
    (notISI t ↔ t % 5 ≠ 2 ∧ t % 5 ≠ 4) := by
  unfold isB isPSP notISI; omega

theorem codec_sliceBody {ref type : Nat} {s : SpsData} {p : Pps} (hc : Ctx s p) {x : Nat × Nat × Nat}
    (h1 : x.1 ≤ 139263) (ht : x.2.1 ≤ 9) (h2 : x.2.2 ≤ 255) : Codec (parseSliceBody ref type s p x) (encSliceTail s p)
    (fun h => h.Ok ref type s p ∧ (h.first_mb_in_slice, h.slice_type, h.pic_parameter_set_id) = x) := by
  obtain ⟨hB, hP, hI⟩ := sliceTypes ht
  have hcat := getChromaArrayType_eq hc.rs
  have hfr : add32 s.log2_max_frame_num_minus4 4 = s.log2_max_frame_num_minus4 + 4 := add32_eq (by have := hc.frame; omega)
  have hW : ((p.weighted_pred_flag ≠ 0 ∧ isPSP x.2.1) ∨ (p.weighted_bipred_idc = 1 ∧ isB x.2.1)) ↔
      weightsPresent p x.2.1 := by
    unfold weightsPresent
    have := hc.wp
    rw [hB, hP]; omega
  have hE : (p.entropy_coding_mode_flag ≠ 0 ∧ notISI x.2.1) ↔
      (p.entropy_coding_mode_flag = 1 ∧ x.2.1 % 5 ≠ 2 ∧ x.2.1 % 5 ≠ 4) := by
    have := hc.entropy
    rw [hI]; omega
  have hN : (isPSP x.2.1 ∨ isB x.2.1) ↔ (x.2.1 % 5 = 0 ∨ x.2.1 % 5 = 3 ∨ x.2.1 % 5 = 1) := by
    rw [hP, hB]; omega
  unfold parseSliceBody
  rw [hcat, hfr]
  refine Codec.congr (
    rd SliceHeader.colour_plane_id ← Codec.optF hc.sep (fun _ => Codec.u');
    rd SliceHeader.frame_num ← Codec.u' (by omega) (by have := hc.frame; omega);
    rd (fun h : SliceHeader => (h.field_pic_flag, h.bottom_field_flag)) as fp hfp ← codec_fieldPic _;
    rd SliceHeader.idr_pic_id ← Codec.optE (Codec.ueIn (by decide));
    rd (fun h : SliceHeader => (h.pic_order_cnt_lsb, h.delta_pic_order_cnt_bottom)) ← codec_poc0 hc.lsb hc.bottom;
    rd SliceHeader.delta_pic_order_cnt ← codec_poc1 hc.bottom;
    rd SliceHeader.redundant_pic_cnt ← Codec.optF hc.redundant (fun _ => Codec.ueIn (by decide));
    rd SliceHeader.direct_spatial_mv_pred_flag ← Codec.optE Codec.u';
    rd (fun h : SliceHeader => (h.num_ref_idx_active_override_flag, h.num_ref_idx_l0_active_minus1,
      h.num_ref_idx_l1_active_minus1)) as nr hnr ← Codec.optE (codec_numRef ht);
    Codec.bind (fun h : SliceHeader => h.ref_pic_list_modification.getD {}) (codec_sliceMod _ _) (fun m _ =>
    rd SliceHeader.pred_weight_table ← Codec.optE (Codec.some (codec_predWeightTable ht));
    rd SliceHeader.dec_ref_pic_marking ← Codec.optE (Codec.some (codec_decRefPicMarking _));
    rd SliceHeader.cabac_init_idc ← Codec.optE (Codec.ueIn (by decide));
    rd SliceHeader.slice_qp_delta ← codec_qpDelta hc.depth;
    rd (fun h : SliceHeader => (h.sp_for_switch_flag, h.slice_qs_delta)) ← codec_switching ht;
    rd (fun h : SliceHeader => (h.disable_deblocking_filter_idc, h.slice_alpha_c0_offset_div2,
      h.slice_beta_offset_div2)) ← codec_deblocking hc.deblocking (by decide);
    rd (fun h : SliceHeader => (h.pic_width_in_mbs_minus1, h.pic_height_in_map_units_minus1,
      h.slice_group_change_rate_minus1, h.slice_group_change_cycle)) ← codec_changeCycle hc.rs hc.rp;
    Codec.ret _) (by intro a b h; (repeat (replace h := And.right h)); rw [h]; rfl)) ?_ ?_
  · intro h
    obtain ⟨x1, x2, x3⟩ := x
    dsimp only at h1 ht h2 hW hE hN hB
    simp only [hW, hE, hN]
    simp only [hB]
    constructor
    · rintro ⟨k1, k2, k3, k4, k5, k6, k7, k8, k9, k10, k11, k12, k13, k14, k15, k16, k17, e⟩
      have e0 : h.nal_ref_idc = ref := by rw [e]
      have e1 : h.nal_unit_type = type := by rw [e]
      have e2 : h.first_mb_in_slice = x1 := by rw [e]
      have e3 : h.slice_type = x2 := by rw [e]
      have e4 : h.pic_parameter_set_id = x3 := by rw [e]
      have e5 : h.ref_pic_list_modification = some (h.ref_pic_list_modification.getD {}) := by rw [e]; rfl
      have hcop : h.separate_colour_plane_flag = s.separate_colour_plane_flag ∧
        h.log2_max_frame_num_minus4 = s.log2_max_frame_num_minus4 ∧
        h.frame_mbs_only_flag = s.frame_mbs_only_flag ∧
        h.pic_order_cnt_type = s.pic_order_cnt_type ∧
        h.bottom_field_pic_order_in_frame_present_flag = p.bottom_field_pic_order_in_frame_present_flag ∧
        h.delta_pic_order_always_zero_flag = s.delta_pic_order_always_zero_flag ∧
        h.redundant_pic_cnt_present_flag = p.redundant_pic_cnt_present_flag ∧
        h.weighted_pred_flag = p.weighted_pred_flag ∧
        h.weighted_bipred_idc = p.weighted_bipred_idc ∧
        h.entropy_coding_mode_flag = p.entropy_coding_mode_flag ∧
        h.deblocking_filter_control_present_flag = p.deblocking_filter_control_present_flag ∧
        h.num_slice_groups_minus1 = p.num_slice_groups_minus1 ∧
        h.slice_group_map_type = p.slice_group_map_type := by
        refine ⟨?_, ?_, ?_, ?_, ?_, ?_, ?_, ?_, ?_, ?_, ?_, ?_, ?_⟩ <;> rw [e]
      clear e
      obtain ⟨c1, c2, c3, c4, c5, c6, c7, c8, c9, c10, c11, c12, c13⟩ := hcop
      subst e0 e1 e2 e3 e4
      dsimp only at *
      refine ⟨⟨⟨rfl, rfl, c1, c2, c3, c4, c5, c6, c7, c8, c9, c10, c11, c12, c13, ?_, ?_, ?_⟩,
        ⟨h1, ht, h2, k1, k2, ?_, ?_, ?_, ?_, ?_, k6.1, k6.2, ?_, k8, ?_, ?_, ?_, ⟨_, e5, k10.1⟩, k11, k12,
          ?_, k14, ?_, ?_, ?_, ?_, ?_⟩, k10.2⟩, rfl⟩
      all_goals clear e5 k10 c1 c2 c3 c4 c5 c6 c7 c8 c9 c10 c11 c12 c13 hW hE hN hB hP hI hcat hfr hc
      · split at k17 <;> simp_all
      · split at k17 <;> simp_all
      · split at k17 <;> simp_all
      · split at k3 <;> simp_all
      · split at k3 <;> simp_all
      · split at k4 <;> simp_all
      · split at k5 <;> simp_all
      · split at k5 <;> simp_all
      · split at k7 <;> simp_all
      · split at k9 <;> simp_all
      · split at k9
        · rw [if_pos ‹_›]; replace k9 := k9.2
          split at k9
          · rw [if_pos ‹_›]; exact k9.1
          · rw [if_neg ‹_›]; exact k9.1
        · rw [if_neg ‹_›]; simp_all
      · split at k9
        · rw [if_pos ‹_›]; replace k9 := k9.2
          split at k9
          · rw [if_pos ‹_›]; exact k9.2
          · rw [if_neg ‹_›]; exact k9.2
        · rw [if_neg ‹_›]; simp_all
      · split at k13 <;> simp_all
      · split at k15
        · exact k15.1
        · rw [if_neg (by omega)]; simp_all
      · split at k15
        · rw [if_pos ‹_›]; exact k15.2
        · rw [if_neg ‹_›]; simp_all
      · split at k16 <;> simp_all
      · split at k16 <;> simp_all
      · split at k17 <;> simp_all
    · rintro ⟨⟨c, r, t1, t2⟩, hx⟩
      simp only [Prod.mk.injEq] at hx
      obtain ⟨rfl, rfl, rfl⟩ := hx
      have c1 := c.nal_ref_idc
      have c2 := c.nal_unit_type
      subst c1 c2
      obtain ⟨m, hm, hm'⟩ := r.modification
      refine ⟨r.colour_plane_id, r.frame_num, ?_, ?_, ?_, ⟨r.delta_length, r.delta⟩, ?_, r.direct, ?_, ?_, r.weights,
        r.marking, ?_, r.slice_qp_delta, ?_, ?_, ?_, ?_⟩
      · have a := r.field; have b := r.bottom
        split at a
        · simp_all
        · simp_all
      · have a := r.idr_pic_id
        split at a <;> simp_all
      · have a := r.lsb; have b := r.delta_bottom
        split at a <;> simp_all
      · have a := r.redundant_pic_cnt
        split at a <;> simp_all
      · have a := r.override; have b := r.l0; have b' := r.l1
        split at a
        · rw [if_pos ‹_›] at b b' ⊢
          refine ⟨a, ?_⟩
          split
          · rw [if_pos ‹_›] at b b'; exact ⟨b, b'⟩
          · rw [if_neg ‹_›] at b b'; exact ⟨b, b'⟩
        · rw [if_neg ‹_›] at b b' ⊢
          rw [a, b, b']
      · rw [hm]; exact ⟨hm', t1, t2⟩
      · have a := r.cabac_init_idc
        split at a <;> simp_all
      · have a := r.sp_for_switch_flag; have b := r.slice_qs_delta
        split at b
        · rw [if_pos ‹_›]; exact ⟨a, b⟩
        · rw [if_neg ‹_›]; rw [if_neg (by omega)] at a; rw [a, b]
      · have a := r.disable_deblocking_filter_idc; have b := r.deblocking_offsets
        split at a
        · rw [if_pos ‹_›]
          refine ⟨a, ?_⟩
          split
          · rw [if_pos ⟨‹_›, ‹_›⟩] at b; exact b
          · rw [if_neg (by omega)] at b; rw [b.1, b.2]
        · rw [if_neg ‹_›]; rw [if_neg (by omega)] at b; rw [a, b.1, b.2]
      · have a := r.slice_group_change_cycle
        have b1 := c.width; have b2 := c.height; have b3 := c.rate
        split at a
        · rw [if_pos ‹_›] at b1 b2 b3 ⊢; exact ⟨b1, b2, b3, a⟩
        · rw [if_neg ‹_›] at b1 b2 b3 ⊢; rw [a, b1, b2, b3]
      · rw [← c.separate_colour_plane_flag, ← c.log2_max_frame_num_minus4, ← c.frame_mbs_only_flag, ← c.pic_order_cnt_type,
          ← c.bottom, ← c.always_zero, ← c.redundant, ← c.weighted_pred_flag, ← c.weighted_bipred_idc, ← c.entropy,
          ← c.deblocking, ← c.num_slice_groups_minus1, ← c.slice_group_map_type, hm]
        show _ = { h with ref_pic_list_modification := some m }
        rw [← hm]
  · rintro h ⟨⟨c, r, t1, t2⟩, hx⟩
    subst hx
    have c1 := c.nal_ref_idc
    have c2 := c.nal_unit_type
    subst c1 c2
    obtain ⟨m, hm, hm'⟩ := r.modification
    dsimp only at hW hE hN hB ⊢
    unfold encSliceTail
    simp only [hW, hE, hN]
    simp only [hB, hm, encOpt, Option.getD_some, List.append_nil, encIf]

/-- slice_header() under the stored parameter sets it refers to. -/
def encSlice (σ : Store) (h : SliceHeader) : List Bool :=
  match σ.pps h.pic_parameter_set_id with
  | none => []
  | some p =>
    match σ.sps p.seq_parameter_set_id with
    | none => []
    | some s => encSliceHeader s p h

/-- Codec of a program followed by a lookup that may fail. -/
theorem codec_sliceHeader {σ : Store} (hσ : σ.InRange) (ref type : Nat) : Codec (parseSliceHeader σ ref type) (encSlice σ)
    (fun h => ∃ p s, σ.pps h.pic_parameter_set_id = some p ∧ σ.sps p.seq_parameter_set_id = some s ∧
      h.Ok ref type s p) := by
  intro nd l c h s'
  unfold parseSliceHeader
  rw [runL_bind_ok]
  constructor
  · rintro ⟨x, s1, h1, h2⟩
    obtain ⟨⟨a1, a2, a3⟩, r, hl, hs⟩ := (codec_sliceStart nd l c x s1).mp h1
    subst hs
    split at h2
    · simp at h2
    · rename_i p hp
      split at h2
      · simp at h2
      · rename_i s hs
        obtain ⟨⟨ok, hx⟩, r', hr, hs'⟩ :=
          (codec_sliceBody (Ctx.mk' (hσ.sps _ _ hs) (hσ.pps _ _ hp)) a1 a2 a3 nd r c h s').mp h2
        subst hx
        refine ⟨⟨p, s, hp, hs, ok⟩, r', ?_, hs'⟩
        have he : encSlice σ h = encSliceHeader s p h := by
          unfold encSlice
          dsimp only at hp
          rw [hp]; dsimp only; rw [hs]
        rw [he, encSliceHeader_eq, hl, hr]
        simp only [List.append_assoc]
  · rintro ⟨⟨p, s, hp, hs, ok⟩, r, hl, hs'⟩
    have he : encSlice σ h = encSliceHeader s p h := by
      unfold encSlice
      rw [hp]; dsimp only; rw [hs]
    rw [he, encSliceHeader_eq] at hl
    refine ⟨(h.first_mb_in_slice, h.slice_type, h.pic_parameter_set_id), ⟨encSliceTail s p h ++ r, c⟩, ?_, ?_⟩
    · refine (codec_sliceStart nd l c _ _).mpr ⟨⟨ok.range.first_mb_in_slice, ok.range.slice_type,
        ok.range.pic_parameter_set_id⟩, _, ?_, rfl⟩
      rw [hl, List.append_assoc]
    · dsimp only
      rw [hp]
      dsimp only
      rw [hs]
      exact (codec_sliceBody (Ctx.mk' (hσ.sps _ _ hs) (hσ.pps _ _ hp)) ok.range.first_mb_in_slice ok.range.slice_type
        ok.range.pic_parameter_set_id nd _ c h s').mpr ⟨⟨ok, rfl⟩, r, rfl, hs'⟩

theorem safe_sliceHeader {σ : Store} (hσ : σ.InRange) (ref type : Nat) : Safe (parseSliceHeader σ ref type) := by
  unfold parseSliceHeader
  refine Safe.bind (by unfold parseSliceStart; safe) (fun x => ?_)
  split
  · exact Safe.null
  · rename_i p hp
    split
    · exact Safe.null
    · rename_i s hs
      have hc := Ctx.mk' (hσ.sps _ _ hs) (hσ.pps _ _ hp)
      have q1 := safe_qpDelta hc.depth
      have q2 := safe_changeCycle hc.rs hc.rp
      unfold parseSliceBody parseFieldPic parsePoc0 parsePoc1 parseNumRef parseSliceMod parseSwitching parseDeblocking
      safe

theorem mode_sliceHeader (σ : Store) (ref type : Nat) : ModeIndep (parseSliceHeader σ ref type) := by
  unfold parseSliceHeader
  refine ModeIndep.bind (by unfold parseSliceStart; modeindep) (fun x => ?_)
  split
  · exact ModeIndep.null
  · split
    · exact ModeIndep.null
    · unfold parseSliceBody parseFieldPic parsePoc0 parsePoc1 parseNumRef parseSliceMod parseQpDelta parseSwitching
        parseDeblocking parseChangeCycle
      modeindep
macro_rules | `(tactic| mode_step) => `(tactic| with_reducible exact mode_sliceHeader _ _ _)

end H264
