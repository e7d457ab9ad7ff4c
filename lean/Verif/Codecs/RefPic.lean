import Verif.Codecs.Pps
import Verif.Model.RefPic
import Verif.Spec.Syntax4

/-
Exact decoding of reference picture list modifications, reference picture marking and weight tables.
-/

namespace H264
open Prog

theorem encUE_ne_nil (v : Nat) : encUE v ≠ [] := by unfold encUE; simp

theorem Codec.optE {α : Type} {c : Prop} [Decidable c] {d : α} {p : Prog α} {e : α → List Bool} {V : α → Prop}
    (h : Codec p e V) : Codec (Prog.opt c d p) (fun a => encIf c (e a)) (fun a => if c then V a else a = d) :=
  Codec.congr (Codec.opt (fun _ => h)) (fun _ => Iff.rfl) (fun _ _ => rfl)

/-- Coding of an operation or of the closing 3. -/
def encModOp' : Option (Nat × Nat) → List Bool
  | some o => encModOp o
  | none => encUE 3

theorem codec_modOp : Codec parseModOp encModOp' (fun o => ∀ x, o = some x → x.1 ≤ 2 ∧ ueRange x.2) := by
  intro nd l c o s'
  unfold parseModOp
  simp only [runL_bind_ok]
  constructor
  · rintro ⟨i, s1, h1, _, s2, h2, h3⟩
    obtain ⟨hi, r, rfl, rfl⟩ := (Codec.ue _ _ _ _ _).mp h1
    rw [runL_guard] at h2
    by_cases h4 : i > 3
    · rw [if_neg (by omega)] at h2; simp at h2
    rw [if_pos h4] at h2
    simp only [Out.ok.injEq, true_and] at h2
    subst h2
    by_cases h5 : i = 0 ∨ i = 1
    · rw [if_pos h5] at h3
      simp only [runL_bind_ok] at h3
      obtain ⟨v, s3, h6, h7⟩ := h3
      obtain ⟨hv, r', rfl, rfl⟩ := (Codec.ue _ _ _ _ _).mp h6
      simp only [Prog.pure_eq, runL_ret, Out.ok.injEq] at h7
      obtain ⟨rfl, rfl⟩ := h7
      refine ⟨?_, r', ?_, rfl⟩
      · rintro x hx; simp only [Option.some.injEq] at hx; subst hx; exact ⟨by show i ≤ 2; omega, hv⟩
      · simp [encModOp', encModOp]
    · rw [if_neg h5] at h3
      by_cases h8 : i = 2
      · rw [if_pos h8] at h3
        simp only [runL_bind_ok] at h3
        obtain ⟨v, s3, h6, h7⟩ := h3
        obtain ⟨hv, r', rfl, rfl⟩ := (Codec.ue _ _ _ _ _).mp h6
        simp only [Prog.pure_eq, runL_ret, Out.ok.injEq] at h7
        obtain ⟨rfl, rfl⟩ := h7
        refine ⟨?_, r', ?_, rfl⟩
        · rintro x hx; simp only [Option.some.injEq] at hx; subst hx; exact ⟨by show i ≤ 2; omega, hv⟩
        · simp [encModOp', encModOp]
      · rw [if_neg h8] at h3
        simp only [Prog.pure_eq, runL_ret, Out.ok.injEq] at h3
        obtain ⟨rfl, rfl⟩ := h3
        have : i = 3 := by omega
        subst this
        exact ⟨by simp, r, rfl, rfl⟩
  · rintro ⟨hv, r, rfl, rfl⟩
    cases o with
    | none =>
      refine ⟨3, ⟨r, c⟩, (Codec.ue _ _ _ _ _).mpr ⟨by decide, r, rfl, rfl⟩, (), ⟨r, c⟩, ?_, ?_⟩
      · rw [runL_guard, if_pos (by omega)]
      · rw [if_neg (by omega), if_neg (by omega)]; rfl
    | some x =>
      obtain ⟨i, v⟩ := x
      obtain ⟨h1, h2⟩ := hv _ rfl
      simp only at h1 h2
      refine ⟨i, ⟨encUE v ++ r, c⟩, (Codec.ue _ _ _ _ _).mpr ⟨by omega, encUE v ++ r, by simp [encModOp', encModOp], rfl⟩, (),
        ⟨encUE v ++ r, c⟩, ?_, ?_⟩
      · rw [runL_guard, if_pos (by omega)]
      · have hv := (Codec.ue nd (encUE v ++ r) c v ⟨r, c⟩).mpr ⟨h2, r, rfl, rfl⟩
        by_cases h5 : i = 0 ∨ i = 1
        · rw [if_pos h5, runL_bind, hv]; rfl
        · rw [if_neg h5, if_pos (by omega), runL_bind, hv]; rfl

theorem codec_modList : Codec parseModList (fun x => encModList x.1 x.2) (fun x => ModListOk x.1 x.2) := by
  unfold parseModList
  have hl := codecLoop codec_modOp (by
    intro o _; cases o with
    | none => exact encUE_ne_nil _
    | some x => simp only [encModOp', encModOp]; intro h; exact encUE_ne_nil _ (List.append_eq_nil_iff.mp h).1)
  refine Codec.congr (
    rd (fun x : Nat × List (Nat × Nat) => x.1) as f hf ← Codec.u';
    rd (fun x : Nat × List (Nat × Nat) => x.2) ← Codec.optF hf (fun _ => hl);
    Codec.ret _) ?_ ?_
  · rintro ⟨f, ops⟩
    unfold ModListOk
    constructor
    · rintro ⟨h1, h2, -⟩
      refine ⟨h1, ?_⟩
      by_cases hf : f = 1
      · rw [if_pos hf] at h2 ⊢; exact fun o ho => h2.1 o ho o rfl
      · rw [if_neg hf] at h2 ⊢; exact h2
    · rintro ⟨h1, h2⟩
      refine ⟨h1, ?_, rfl⟩
      by_cases hf : f = 1
      · rw [if_pos hf] at h2 ⊢
        exact ⟨fun o ho x hx => by rw [Option.some.injEq] at hx; rw [← hx]; exact h2 o ho, by simp⟩
      · rw [if_neg hf] at h2 ⊢; exact h2
  · rintro ⟨f, ops⟩ _
    simp only [encModList, encModOp', List.append_nil]

theorem codec_refPicListMod (t : Nat) : Codec (parseRefPicListMod t) encRefPicListMod (RefPicListMod.Ok t) := by
  unfold parseRefPicListMod
  refine Codec.congr (
    rd (fun m : RefPicListMod => (m.ref_pic_list_modification_flag_l0, m.ops_l0)) ← Codec.optE codec_modList;
    rd (fun m : RefPicListMod => (m.ref_pic_list_modification_flag_l1, m.ops_l1)) ← Codec.optE codec_modList;
    Codec.ret _) ?_ ?_
  · rintro ⟨t', f0, f1, o0, o1⟩
    constructor
    · rintro ⟨h1, h2, h3⟩
      rw [RefPicListMod.mk.injEq] at h3
      simp only [Prod.mk.injEq] at h1 h2
      exact ⟨h3.1, h1, h2⟩
    · rintro ⟨h1, h2, h3⟩
      simp only at h1
      subst h1
      refine ⟨?_, ?_, rfl⟩
      · simp only [Prod.mk.injEq]; exact h2
      · simp only [Prod.mk.injEq]; exact h3
  · rintro m ok
    unfold encRefPicListMod
    rw [ok.slice_type]
    simp only [List.append_nil]

/-- Coding of an operation or of the closing 0. -/
def encMmco' : Option Mmco → List Bool
  | some o => encMmco o
  | none => encUE 0

/-- Ranges and defaults, the closing 0 included. -/
def Mmco.Ok0 (o : Mmco) : Prop :=
  o.memory_management_control_operation ≤ 6 ∧
  (if o.memory_management_control_operation = 1 ∨ o.memory_management_control_operation = 3
    then ueRange o.difference_of_pic_nums_minus1 else o.difference_of_pic_nums_minus1 = 0) ∧
  (if o.memory_management_control_operation = 2 then ueRange o.long_term_pic_num
    else o.long_term_pic_num = 0) ∧
  (if o.memory_management_control_operation = 3 ∨ o.memory_management_control_operation = 6
    then ueRange o.long_term_frame_idx else o.long_term_frame_idx = 0) ∧
  (if o.memory_management_control_operation = 4
    then ueRange o.max_long_term_frame_idx_plus1 else o.max_long_term_frame_idx_plus1 = 0)

theorem codec_mmcoBody : Codec parseMmcoBody encMmco Mmco.Ok0 := by
  unfold parseMmcoBody
  refine Codec.congr (
    rd Mmco.memory_management_control_operation ← Codec.ue;
    ck;
    rd Mmco.difference_of_pic_nums_minus1 ← Codec.optE Codec.ue;
    rd Mmco.long_term_pic_num ← Codec.optE Codec.ue;
    rd Mmco.long_term_frame_idx ← Codec.optE Codec.ue;
    rd Mmco.max_long_term_frame_idx_plus1 ← Codec.optE Codec.ue;
    Codec.ret _) ?_ ?_
  · intro o
    constructor
    · rintro ⟨h1, h2, h3, h4, h5, h6, -⟩
      exact ⟨by omega, h3, h4, h5, h6⟩
    · rintro ⟨h1, h3, h4, h5, h6⟩
      exact ⟨by omega, by omega, h3, h4, h5, h6, rfl⟩
  · intro o _
    unfold encMmco
    simp only [List.append_nil]
    simp only [List.append_assoc]

theorem codec_mmco : Codec parseMmco encMmco' (fun o => ∀ x, o = some x → x.Ok) := by
  unfold parseMmco
  refine Codec.congr (Codec.map (fun o : Mmco => if o.memory_management_control_operation ≠ 0 then some o else none)
    (fun o => o.getD {}) codec_mmcoBody ?_) ?_ ?_
  · rintro ⟨op, a, b, d, e⟩ ⟨h1, h2, h3, h4, h5⟩
    dsimp only at h1 h2 h3 h4 h5 ⊢
    by_cases h : op = 0
    · subst h
      rw [if_neg (by decide)] at h2 h3 h4 h5
      subst h2 h3 h4 h5
      rfl
    · rw [if_pos h]; rfl
  · intro o
    cases o with
    | none =>
      constructor
      · intro _ x hx; cases hx
      · intro _
        refine ⟨⟨by decide, ?_, ?_, ?_, ?_⟩, rfl⟩ <;> rfl
    | some x =>
      simp only [Option.getD]
      constructor
      · rintro ⟨⟨h1, h2, h3, h4, h5⟩, h6⟩ y hy
        rw [Option.some.injEq] at hy
        subst hy
        by_cases h : x.memory_management_control_operation = 0
        · rw [if_neg (by omega)] at h6; cases h6
        · exact ⟨⟨by omega, h1⟩, h2, h3, h4, h5⟩
      · intro h
        obtain ⟨⟨h0, h1⟩, h2, h3, h4, h5⟩ := h x rfl
        exact ⟨⟨h1, h2, h3, h4, h5⟩, by rw [if_pos (by omega)]⟩
  · intro o _
    cases o with
    | none => rfl
    | some x => rfl

theorem encMmco'_ne (o : Option Mmco) : encMmco' o ≠ [] := by
  cases o with
  | none => exact encUE_ne_nil _
  | some x =>
    simp only [encMmco', encMmco, List.append_assoc]
    intro h; exact encUE_ne_nil _ (List.append_eq_nil_iff.mp h).1

theorem encModOp'_ne (o : Option (Nat × Nat)) : encModOp' o ≠ [] := by
  cases o with
  | none => exact encUE_ne_nil _
  | some x => simp only [encModOp', encModOp]; intro h; exact encUE_ne_nil _ (List.append_eq_nil_iff.mp h).1

theorem codec_decRefPicMarking (idr : Nat) :
    Codec (parseDecRefPicMarking idr) encDecRefPicMarking (DecRefPicMarking.Ok idr) := by
  unfold parseDecRefPicMarking
  have hl := codecLoop codec_mmco (fun o _ => encMmco'_ne o)
  by_cases hi : idr ≠ 0
  · rw [if_pos hi]
    refine Codec.congr (
      rd DecRefPicMarking.no_output_of_prior_pics_flag ← Codec.u';
      rd DecRefPicMarking.long_term_reference_flag ← Codec.u';
      Codec.ret _) ?_ ?_
    · rintro ⟨i, a, b, d, o⟩
      constructor
      · rintro ⟨h1, h2, h3⟩
        rw [DecRefPicMarking.mk.injEq] at h3
        obtain ⟨rfl, -, -, rfl, rfl⟩ := h3
        exact ⟨rfl, h1, h2, Nat.zero_lt_two, fun _ => rfl, fun h => absurd h hi, rfl⟩
      · rintro ⟨h1, h2, h3, h4, h5, h6, h7⟩
        simp only at h1 h2 h3 h4 h5 h6 h7
        have h5' := h5 hi
        subst h1 h5'
        simp at h7
        subst h7
        exact ⟨h2, h3, rfl⟩
    · rintro m ok
      unfold encDecRefPicMarking
      rw [if_pos (by rw [ok.IdrPicFlag]; exact hi)]
      simp only [List.append_nil]
  · rw [if_neg hi]
    refine Codec.congr (
      rd DecRefPicMarking.adaptive_ref_pic_marking_mode_flag as f hf ← Codec.u';
      rd DecRefPicMarking.ops ← Codec.optF hf (fun _ => hl);
      Codec.ret _) ?_ ?_
    · have hi0 : idr = 0 := by omega
      rintro ⟨i, a, b, d, o⟩
      constructor
      · rintro ⟨h1, h2, h3⟩
        rw [DecRefPicMarking.mk.injEq] at h3
        obtain ⟨rfl, rfl, rfl, -, -⟩ := h3
        refine ⟨rfl, Nat.zero_lt_two, Nat.zero_lt_two, h1, fun h => absurd h hi, fun _ => ⟨rfl, rfl⟩, ?_⟩
        dsimp only at h1 h2 ⊢
        by_cases hd : d = 1
        · rw [if_pos hd] at h2 ⊢; exact fun o ho => h2.1 o ho o rfl
        · rw [if_neg hd] at h2 ⊢; exact h2
      · rintro ⟨h1, h2, h3, h4, h5, h6, h7⟩
        simp only at h1 h2 h3 h4 h5 h6 h7
        obtain ⟨rfl, rfl⟩ := h6 hi0
        subst h1
        refine ⟨h4, ?_, rfl⟩
        dsimp only
        by_cases hd : d = 1
        · rw [if_pos hd] at h7 ⊢
          exact ⟨fun o ho x hx => by rw [Option.some.injEq] at hx; rw [← hx]; exact h7 o ho, by simp⟩
        · rw [if_neg hd] at h7 ⊢; exact h7
    · rintro m ok
      unfold encDecRefPicMarking
      rw [if_neg (by rw [ok.IdrPicFlag]; exact hi)]
      simp only [List.append_nil, encMmco']

theorem codec_lumaWeight : Codec parseLumaWeight (fun x => encSE x.1 ++ encSE x.2) (fun x => seRange x.1 ∧ seRange x.2) := by
  unfold parseLumaWeight
  refine Codec.congr (
    rd (fun x : Int × Int => x.1) ← Codec.se;
    rd (fun x : Int × Int => x.2) ← Codec.se;
    Codec.ret _) ?_ ?_
  · rintro ⟨a, b⟩; simp [seRange]
  · rintro ⟨a, b⟩ _; simp

theorem codec_chroma4 : Codec (do
    let w0 ← se
    let o0 ← se
    let w1 ← se
    let o1 ← se
    pure (w0, o0, w1, o1))
    (fun x => encSE x.1 ++ encSE x.2.1 ++ encSE x.2.2.1 ++ encSE x.2.2.2)
    (fun x => seRange x.1 ∧ seRange x.2.1 ∧ seRange x.2.2.1 ∧ seRange x.2.2.2) := by
  refine Codec.congr (
    rd (fun x : Int × Int × Int × Int => x.1) ← Codec.se;
    rd (fun x : Int × Int × Int × Int => x.2.1) ← Codec.se;
    rd (fun x : Int × Int × Int × Int => x.2.2.1) ← Codec.se;
    rd (fun x : Int × Int × Int × Int => x.2.2.2) ← Codec.se;
    Codec.ret _) ?_ ?_
  · rintro ⟨a, b, d, e⟩; simp [seRange]
  · rintro ⟨a, b, d, e⟩ _; simp

theorem codec_chromaWeight : Codec parseChromaWeight
    (fun x => encU 1 x.1 ++ encIf (x.1 = 1) (encSE x.2.1 ++ encSE x.2.2.1 ++ encSE x.2.2.2.1 ++ encSE x.2.2.2.2))
    (fun x => x.1 < 2 ∧ if x.1 = 1 then seRange x.2.1 ∧ seRange x.2.2.1 ∧ seRange x.2.2.2.1 ∧ seRange x.2.2.2.2
      else x.2 = (0, 0, 0, 0)) := by
  unfold parseChromaWeight
  refine Codec.congr (
    rd (fun x : Nat × Int × Int × Int × Int => x.1) as f hf ← Codec.u';
    rd (fun x : Nat × Int × Int × Int × Int => x.2) ← Codec.optF hf (fun _ => codec_chroma4);
    Codec.ret _) ?_ ?_
  · rintro ⟨f, x⟩; simp
  · rintro ⟨f, x⟩ _; simp

theorem codec_weight (cat : Nat) : Codec (parseWeight cat) (encWeight cat) (Weight.Ok cat) := by
  unfold parseWeight
  refine Codec.congr (
    rd Weight.luma_weight_flag as f hf ← Codec.u';
    rd (fun w : Weight => (w.luma_weight, w.luma_offset)) ← Codec.optF hf (fun _ => codec_lumaWeight);
    rd (fun w : Weight => (w.chroma_weight_flag, w.chroma_weight_0, w.chroma_offset_0, w.chroma_weight_1, w.chroma_offset_1))
      ← Codec.optE codec_chromaWeight;
    Codec.ret _) ?_ ?_
  · rintro ⟨f, lw, lo, g, a, b, d, e⟩
    constructor
    · rintro ⟨h1, h2, h3, -⟩
      dsimp only at h1 h2 h3
      refine ⟨h1, ?_, ?_, ?_⟩
      · by_cases hf : f = 1
        · simp only [if_pos hf] at h2 ⊢; exact h2
        · simp only [if_neg hf, Prod.mk.injEq] at h2 ⊢; exact h2
      · by_cases hc : cat ≠ 0
        · simp only [if_pos hc] at h3 ⊢; exact h3.1
        · simp only [if_neg hc, Prod.mk.injEq] at h3 ⊢; exact h3.1
      · by_cases hc : cat ≠ 0
        · simp only [if_pos hc] at h3
          by_cases hg : g = 1
          · simp only [if_pos hg] at h3 ⊢; exact h3.2
          · simp only [if_neg hg, Prod.mk.injEq] at h3 ⊢; exact h3.2
        · simp only [if_neg hc, Prod.mk.injEq] at h3
          obtain ⟨rfl, h3⟩ := h3
          exact h3
    · rintro ⟨h1, h2, h3, h4⟩
      dsimp only at h1 h2 h3 h4
      refine ⟨h1, ?_, ?_, rfl⟩
      · dsimp only
        by_cases hf : f = 1
        · simp only [if_pos hf] at h2 ⊢; exact h2
        · simp only [if_neg hf, Prod.mk.injEq] at h2 ⊢; exact h2
      · dsimp only
        by_cases hc : cat ≠ 0
        · simp only [if_pos hc] at h3 ⊢
          refine ⟨h3, ?_⟩
          by_cases hg : g = 1
          · simp only [if_pos hg] at h4 ⊢; exact h4
          · simp only [if_neg hg, Prod.mk.injEq] at h4 ⊢; exact h4
        · simp only [if_neg hc, Prod.mk.injEq] at h3 ⊢
          subst h3
          exact ⟨rfl, h4⟩
  · intro w _
    unfold encWeight
    simp only [List.append_nil]
    simp only [List.append_assoc]

theorem codec_predWeightTable {cat t n0 n1 : Nat} (ht : t ≤ 9) :
    Codec (parsePredWeightTable cat t n0 n1) encPredWeightTable (PredWeightTable.Ok cat t n0 n1) := by
  unfold parsePredWeightTable
  have hB : (t = 1 ∨ t = 6) ↔ t % 5 = 1 := by omega
  refine Codec.congr (
    rd PredWeightTable.luma_log2_weight_denom ← Codec.ueIn (by decide);
    rd PredWeightTable.chroma_log2_weight_denom ← Codec.optE (Codec.ueIn (by decide));
    rd PredWeightTable.l0 ← (codec_weight cat).rep _;
    rd PredWeightTable.l1 ← Codec.optE ((codec_weight cat).rep _);
    Codec.ret _) ?_ ?_
  · rintro ⟨a, b, d, e, f, g, l0, l1⟩
    constructor
    · rintro ⟨⟨-, h1⟩, h2, ⟨h3, h4⟩, h5, h6⟩
      rw [PredWeightTable.mk.injEq] at h6
      obtain ⟨rfl, rfl, rfl, rfl, -⟩ := h6
      dsimp only at h1 h2 h3 h4 h5
      refine ⟨rfl, rfl, rfl, rfl, h1, ?_, h3, h4, ?_, ?_⟩
      · by_cases hc : a ≠ 0
        · simp only [if_pos hc] at h2 ⊢; exact h2.2
        · simp only [if_neg hc] at h2 ⊢; exact h2
      · by_cases hb : b % 5 = 1
        · rw [if_pos (hB.mpr hb)] at h5; rw [if_pos hb]; exact h5.1
        · rw [if_neg (fun h => hb (hB.mp h))] at h5; rw [if_neg hb]; subst h5; rfl
      · by_cases hb : b % 5 = 1
        · rw [if_pos (hB.mpr hb)] at h5; exact h5.2
        · rw [if_neg (fun h => hb (hB.mp h))] at h5; subst h5; simp
    · rintro ⟨h1, h2, h3, h4, h5, h6, h7, h8, h9, h10⟩
      dsimp only at h1 h2 h3 h4 h5 h6 h7 h8 h9 h10
      subst h1 h2 h3 h4
      refine ⟨⟨Nat.zero_le _, h5⟩, ?_, ⟨h7, h8⟩, ?_, rfl⟩
      · dsimp only
        by_cases hc : a ≠ 0
        · simp only [if_pos hc] at h6 ⊢; exact ⟨Nat.zero_le _, h6⟩
        · simp only [if_neg hc] at h6 ⊢; exact h6
      · dsimp only
        by_cases hb : b % 5 = 1
        · rw [if_pos hb] at h9; rw [if_pos (hB.mpr hb)]; exact ⟨h9, h10⟩
        · rw [if_neg hb] at h9; rw [if_neg (fun h => hb (hB.mp h))]; exact List.length_eq_zero_iff.mp h9
  · rintro m ok
    unfold encPredWeightTable encIf
    rw [ok.slice_type, ok.chroma_array_type]
    simp only [hB, List.append_nil]
    simp only [List.append_assoc]

theorem safe_modOp : Safe parseModOp := by unfold parseModOp; safe
theorem safe_modLoop : Safe parseModOp.loop := Safe.loop safe_modOp codec_modOp (fun o _ => encModOp'_ne o)
macro_rules | `(tactic| safe_step) => `(tactic| with_reducible exact safe_modLoop)
theorem safe_refPicListMod (t : Nat) : Safe (parseRefPicListMod t) := by unfold parseRefPicListMod parseModList; safe
macro_rules | `(tactic| safe_step) => `(tactic| with_reducible exact safe_refPicListMod _)
theorem safe_mmco : Safe parseMmco := by unfold parseMmco parseMmcoBody; safe
theorem safe_mmcoLoop : Safe parseMmco.loop := Safe.loop safe_mmco codec_mmco (fun o _ => encMmco'_ne o)
macro_rules | `(tactic| safe_step) => `(tactic| with_reducible exact safe_mmcoLoop)
theorem safe_decRefPicMarking (i : Nat) : Safe (parseDecRefPicMarking i) := by unfold parseDecRefPicMarking; safe
macro_rules | `(tactic| safe_step) => `(tactic| with_reducible exact safe_decRefPicMarking _)
theorem safe_predWeightTable (a b d e : Nat) : Safe (parsePredWeightTable a b d e) := by
  unfold parsePredWeightTable parseWeight parseLumaWeight parseChromaWeight; safe
macro_rules | `(tactic| safe_step) => `(tactic| with_reducible exact safe_predWeightTable _ _ _ _)

theorem mode_refPicListMod (t : Nat) : ModeIndep (parseRefPicListMod t) := by
  unfold parseRefPicListMod parseModList parseModOp; modeindep
macro_rules | `(tactic| mode_step) => `(tactic| with_reducible exact mode_refPicListMod _)
theorem mode_decRefPicMarking (t : Nat) : ModeIndep (parseDecRefPicMarking t) := by
  unfold parseDecRefPicMarking parseMmco parseMmcoBody; modeindep
macro_rules | `(tactic| mode_step) => `(tactic| with_reducible exact mode_decRefPicMarking _)
theorem mode_predWeightTable (a b d e : Nat) : ModeIndep (parsePredWeightTable a b d e) := by
  unfold parsePredWeightTable parseWeight parseLumaWeight parseChromaWeight; modeindep
macro_rules | `(tactic| mode_step) => `(tactic| with_reducible exact mode_predWeightTable _ _ _ _)

end H264
