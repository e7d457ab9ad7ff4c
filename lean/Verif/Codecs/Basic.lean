import Verif.Model.Basic
import Verif.Spec.Syntax1

/-
Codec lemmas (exact decoding) for the NAL unit header, HRD and VUI parsers.
-/

namespace H264
open Prog

theorem Codec.ueIn {lo hi : Nat} (h : hi < 2 ^ 32 - 1) :
    Codec (Prog.ueIn lo hi) encUE (fun v => lo ≤ v ∧ v ≤ hi) := by
  refine Codec.congr (Codec.bind (fun v => v) Codec.ue
    (fun v _ => Codec.guard (fun _ => Codec.ret v)) (fun a b h => h.2)) ?_ ?_
  · intro a; simp only [and_true]; omega
  · intro a _; simp

theorem Codec.opt {α : Type} {c : Prop} [Decidable c] {d : α} {p : Prog α} {e : α → List Bool} {V : α → Prop}
    (h : c → Codec p e V) :
    Codec (Prog.opt c d p) (fun a => if c then e a else []) (fun a => if c then V a else a = d) :=
  Codec.ite h (fun _ => Codec.ret d)

/-- Discharge "the field read is recoverable from the final value". -/
macro "cproj" : tactic =>
  `(tactic| (intro a b h; (repeat (replace h := And.right h)); rw [h]))

/-- One read of a parser: `rd π ← h; rest`, where `h` is the codec of the program read first and `π` recovers its
value from the final result. -/
macro "rd " p:term:max " ← " h:term "; " rest:term : term => `(Codec.bind $p $h (fun _ _ => $rest) (by cproj))
/-- The same, naming the value read and its range. -/
macro "rd " p:term:max " as " a:ident ha:ident " ← " h:term "; " rest:term : term =>
  `(Codec.bind $p $h (fun $a $ha => $rest) (by cproj))
/-- A range check. -/
macro "ck; " rest:term : term => `(Codec.guard (fun _ => $rest))

theorem Codec.u' {n : Nat} (h : 1 ≤ n := by decide) (h' : n ≤ 32 := by decide) :
    Codec (Prog.u n) (encU n) (fun v => v < 2 ^ n) := Codec.u h h'

theorem codec_svcHeaderExt : Codec parseSvcHeaderExt encSvcHeaderExt SvcHeaderExt.Ok := by
  unfold parseSvcHeaderExt
  refine Codec.congr (
    rd SvcHeaderExt.idr_flag ← Codec.u';
    rd SvcHeaderExt.priority_id ← Codec.u';
    rd SvcHeaderExt.no_inter_layer_pred_flag ← Codec.u';
    rd SvcHeaderExt.dependency_id ← Codec.u';
    rd SvcHeaderExt.quality_id ← Codec.u';
    rd SvcHeaderExt.temporal_id ← Codec.u';
    rd SvcHeaderExt.use_ref_base_pic_flag ← Codec.u';
    rd SvcHeaderExt.discardable_flag ← Codec.u';
    rd SvcHeaderExt.output_flag ← Codec.u';
    rd SvcHeaderExt.reserved_three_2bits ← Codec.u';
    Codec.ret _) ?_ ?_
  · intro e
    constructor
    · rintro ⟨h1, h2, h3, h4, h5, h6, h7, h8, h9, h10, _⟩
      exact ⟨h1, h2, h3, h4, h5, h6, h7, h8, h9, h10⟩
    · rintro ⟨h1, h2, h3, h4, h5, h6, h7, h8, h9, h10⟩
      exact ⟨h1, h2, h3, h4, h5, h6, h7, h8, h9, h10, rfl⟩
  · intro e _
    simp only [encSvcHeaderExt, List.append_assoc, List.append_nil]

/-- A block guarded by a one-bit flag. -/
theorem Codec.optF {α : Type} {f : Nat} (hf : f < 2) {d : α} {p : Prog α} {e : α → List Bool} {V : α → Prop}
    (h : f = 1 → Codec p e V) :
    Codec (Prog.opt (f ≠ 0) d p) (fun a => encIf (f = 1) (e a)) (fun a => if f = 1 then V a else a = d) := by
  have hc : f ≠ 0 ↔ f = 1 := by omega
  refine Codec.congr (Codec.opt (fun hc' => h (hc.mp hc'))) (fun a => ?_) (fun a _ => ?_)
  · simp only [hc]
  · simp only [hc, encIf]

theorem codec_extFlags (t : Nat) : Codec (parseExtFlags t)
    (fun x => encU 1 (if t ≠ 21 then x.1 else x.2))
    (fun x => if t ≠ 21 then x.1 < 2 ∧ x.2 = 0 else x.1 = 0 ∧ x.2 < 2) := by
  unfold parseExtFlags
  refine Codec.congr (Codec.ite (fun _ => rd Prod.fst ← Codec.u'; Codec.ret _)
    (fun _ => rd Prod.snd ← Codec.u'; Codec.ret _)) ?_ ?_
  · rintro ⟨x, y⟩
    split <;> simp [Prod.ext_iff, and_comm]
  · rintro ⟨x, y⟩ _
    split <;> simp

/-- A sub-structure stored behind a pointer. -/
theorem Codec.some {α : Type} {p : Prog α} {e : α → List Bool} {V : α → Prop} (h : Codec p e V) :
    Codec (p >>= fun a => pure (Option.some a)) (encOpt e) (fun o => ∃ a, o = Option.some a ∧ V a) := by
  intro nd l c a s'
  rw [runL_bind_ok]
  constructor
  · rintro ⟨x, s1, h1, h2⟩
    obtain ⟨hv, r, rfl, rfl⟩ := (h nd l c x s1).mp h1
    simp only [Prog.pure_eq, runL_ret, Out.ok.injEq] at h2
    obtain ⟨rfl, rfl⟩ := h2
    exact ⟨⟨x, rfl, hv⟩, r, rfl, rfl⟩
  · rintro ⟨⟨x, rfl, he⟩, r, rfl, rfl⟩
    exact ⟨x, ⟨r, c⟩, (h nd _ c x _).mpr ⟨he, r, rfl, rfl⟩, rfl⟩

theorem codec_extBody (x : Nat × Nat) : Codec (parseExtBody x) (encOpt encSvcHeaderExt)
    (fun o => x.1 ≠ 0 ∧ ∃ e, o = some e ∧ e.Ok) := by
  unfold parseExtBody
  by_cases h : x.1 ≠ 0
  · rw [if_pos h]
    exact Codec.congr (Codec.some codec_svcHeaderExt) (fun o => by simp only [h, true_and, ne_eq, not_false_iff]) (fun _ _ => rfl)
  · rw [if_neg h]
    intro nd l c a s'
    constructor
    · intro h'
      split at h' <;> simp [runL_bind_ok] at h'
    · rintro ⟨⟨h', _⟩, _⟩; exact absurd h' h

theorem codec_nalHeader : Codec parseNalHeader encNalHeader NalHeader.Ok := by
  unfold parseNalHeader
  refine Codec.congr (
    rd NalHeader.forbidden_zero_bit ← Codec.u';
    rd NalHeader.nal_ref_idc ← Codec.u';
    rd NalHeader.nal_unit_type as t ht ← Codec.u';
    rd (fun h : NalHeader => ((h.svc_extension_flag, h.avc_3d_extension_flag), h.svc_extension)) ←
      Codec.opt (fun _ => rd Prod.fst ← codec_extFlags t; rd Prod.snd ← codec_extBody _; Codec.ret _);
    Codec.ret _) ?_ ?_
  · intro h
    constructor
    · rintro ⟨h1, h2, h3, h4, _⟩
      refine ⟨h1, h2, h3, ?_, ?_⟩ <;> (dsimp only at h4; revert h4; split)
      · rintro ⟨h4, h5, -⟩
        split at h4
        · exact ⟨‹_›, h4.2⟩
        · omega
      · simp only [Prod.mk.injEq]; omega
      · rintro ⟨h4, ⟨h5, h6⟩, -⟩
        split at h4
        · rw [if_pos (by omega)]
          exact ⟨by omega, h6⟩
        · omega
      · simp only [Prod.mk.injEq]
        rw [if_neg (by omega)]
        rintro ⟨⟨h4, _⟩, h5⟩; exact ⟨h4, h5⟩
    · rintro ⟨h1, h2, h3, ⟨h4, h5⟩, h6⟩
      refine ⟨h1, h2, h3, ?_, rfl⟩
      dsimp only
      split at h6
      · rw [if_pos (by omega), if_pos h4]
        exact ⟨by omega, ⟨by omega, h6.2⟩, rfl⟩
      · rw [if_neg (by omega)]
        simp only [h5, h6.1, h6.2]
  · intro e h
    obtain ⟨h1, h2, h3, ⟨h4, h5⟩, h6⟩ := h
    simp only [encNalHeader, List.append_assoc, List.append_nil, h4, or_false, ne_eq, not_false_iff, if_true]
    split
    · rename_i hc
      rw [if_pos hc] at h6
      obtain ⟨_, x, hx, _⟩ := h6
      simp only [hx, encOpt]
    · rfl

/-! ### HRD -/

theorem codec_hrdEntry : Codec parseHrdEntry (fun e => encUE e.1 ++ encUE e.2.1 ++ encU 1 e.2.2)
    (fun e => e.1 < 2 ^ 32 - 1 ∧ e.2.1 < 2 ^ 32 - 1 ∧ e.2.2 < 2) := by
  unfold parseHrdEntry
  refine Codec.congr (
    rd (fun e : Nat × Nat × Nat => e.1) ← Codec.ue;
    rd (fun e : Nat × Nat × Nat => e.2.1) ← Codec.ue;
    rd (fun e : Nat × Nat × Nat => e.2.2) ← Codec.u';
    Codec.ret _) ?_ ?_
  · rintro ⟨a, b, c⟩; simp
  · rintro ⟨a, b, c⟩ _; simp

theorem encHrdEntries_map : ∀ l : List (Nat × Nat × Nat),
    encHrdEntries (l.map (fun e => e.1)) (l.map (fun e => e.2.1)) (l.map (fun e => e.2.2)) =
      l.flatMap (fun e => encUE e.1 ++ encUE e.2.1 ++ encU 1 e.2.2)
  | [] => rfl
  | a :: l => by
    simp only [List.map_cons, encHrdEntries, List.flatMap_cons, encHrdEntries_map l]

theorem zip3_map : ∀ l : List (Nat × Nat × Nat),
    (l.map (fun e => e.1)).zip ((l.map (fun e => e.2.1)).zip (l.map (fun e => e.2.2))) = l
  | [] => rfl
  | a :: l => by simp only [List.map_cons, List.zip_cons_cons, zip3_map l]

theorem map_zip3 {n : Nat} : ∀ {a b c : List Nat}, a.length = n → b.length = n → c.length = n →
    (a.zip (b.zip c)).map (fun e => e.1) = a ∧ (a.zip (b.zip c)).map (fun e => e.2.1) = b ∧
    (a.zip (b.zip c)).map (fun e => e.2.2) = c := by
  induction n with
  | zero => intro a b c ha hb hc; simp_all [List.length_eq_zero_iff]
  | succ n ih =>
    intro a b c ha hb hc
    match a, b, c, ha, hb, hc with
    | x :: a, y :: b, z :: c, ha, hb, hc =>
      obtain ⟨h1, h2, h3⟩ := ih (a := a) (b := b) (c := c) (by simpa using ha) (by simpa using hb) (by simpa using hc)
      simp only [List.zip_cons_cons, List.map_cons, h1, h2, h3, and_self]

theorem codec_hrd : Codec parseHrd encHrd Hrd.Ok := by
  unfold parseHrd
  refine Codec.congr (
    rd Hrd.cpb_cnt_minus1 as n hn ← Codec.ueIn (by decide);
    rd Hrd.bit_rate_scale ← Codec.u';
    rd Hrd.cpb_size_scale ← Codec.u';
    Codec.bind (fun h : Hrd => h.bit_rate_value_minus1.zip (h.cpb_size_value_minus1.zip h.cbr_flag))
      (codec_hrdEntry.rep _) (fun es _ =>
    rd Hrd.initial_cpb_removal_delay_length_minus1 ← Codec.u';
    rd Hrd.cpb_removal_delay_length_minus1 ← Codec.u';
    rd Hrd.dpb_output_delay_length_minus1 ← Codec.u';
    rd Hrd.time_offset_length ← Codec.u';
    Codec.ret _) (by intro a b h; (repeat (replace h := And.right h)); rw [h]; exact zip3_map a)) ?_ ?_
  · intro h
    constructor
    · rintro ⟨h1, h2, h3, ⟨h4, h4'⟩, h5, h6, h7, h8, h9⟩
      have e1 : h.bit_rate_value_minus1 = _ := congrArg Hrd.bit_rate_value_minus1 h9
      have e2 : h.cpb_size_value_minus1 = _ := congrArg Hrd.cpb_size_value_minus1 h9
      have e3 : h.cbr_flag = _ := congrArg Hrd.cbr_flag h9
      dsimp only at e1 e2 e3
      refine ⟨h1.2, h2, h3, ?_, ?_, ?_, ?_, ?_, ?_, h5, h6, h7, h8⟩
      · rw [e1, List.length_map]; exact h4
      · rw [e2, List.length_map]; exact h4
      · rw [e3, List.length_map]; exact h4
      · rw [e1]; intro v hv; obtain ⟨x, hx, rfl⟩ := List.mem_map.mp hv; have := (h4' x hx).1; omega
      · rw [e2]; intro v hv; obtain ⟨x, hx, rfl⟩ := List.mem_map.mp hv; have := (h4' x hx).2.1; omega
      · rw [e3]; intro v hv; obtain ⟨x, hx, rfl⟩ := List.mem_map.mp hv; exact (h4' x hx).2.2
    · rintro ⟨h1, h2, h3, l1, l2, l3, v1, v2, v3, h5, h6, h7, h8⟩
      obtain ⟨m1, m2, m3⟩ := map_zip3 l1 l2 l3
      refine ⟨⟨by omega, h1⟩, h2, h3, ⟨?_, ?_⟩, h5, h6, h7, h8, ?_⟩
      · simp only [List.length_zip]; omega
      · intro a ha
        have a1 := v1 a.1 (List.of_mem_zip ha).1
        have a2 := v2 a.2.1 (List.of_mem_zip (List.of_mem_zip ha).2).1
        have a3 := v3 a.2.2 (List.of_mem_zip (List.of_mem_zip ha).2).2
        refine ⟨by omega, by omega, a3⟩
      · simp only [m1, m2, m3]
  · intro h ok
    obtain ⟨m1, m2, m3⟩ := map_zip3 ok.bit_rate_len ok.cpb_size_len ok.cbr_len
    have := encHrdEntries_map (h.bit_rate_value_minus1.zip (h.cpb_size_value_minus1.zip h.cbr_flag))
    rw [m1, m2, m3] at this
    simp only [encHrd, this, List.append_assoc, List.append_nil]

/-! ### VUI -/

theorem codec_aspect {f : Nat} (hf : f < 2) : Codec (parseAspectRatio f)
    (fun t => encIf (f = 1) (encU 8 t.1 ++ encIf (t.1 = 255) (encU 16 t.2.1 ++ encU 16 t.2.2)))
    (fun t => if f = 1 then t.1 < 256 ∧ (if t.1 = 255 then t.2.1 < 2 ^ 16 ∧ t.2.2 < 2 ^ 16 else t.2 = (0, 0))
              else t = (0, 0, 0)) := by
  unfold parseAspectRatio parseSar
  refine Codec.congr (Codec.optF hf (fun _ =>
    rd Prod.fst ← Codec.u';
    rd Prod.snd ← Codec.opt (fun _ =>
      rd Prod.fst ← Codec.u';
      rd Prod.snd ← Codec.u';
      Codec.ret _);
    Codec.ret _)) ?_ ?_
  · rintro ⟨a, b, c⟩; simp
  · rintro ⟨a, b, c⟩ _; simp [encIf]

theorem codec_videoSignal {f : Nat} (hf : f < 2) : Codec (parseVideoSignal f)
    (fun t => encIf (f = 1) (encU 3 t.1 ++ encU 1 t.2.1 ++ encU 1 t.2.2.1 ++
      encIf (t.2.2.1 = 1) (encU 8 t.2.2.2.1 ++ encU 8 t.2.2.2.2.1 ++ encU 8 t.2.2.2.2.2)))
    (fun t => if f = 1 then t.1 < 8 ∧ t.2.1 < 2 ∧ t.2.2.1 < 2 ∧
      (if t.2.2.1 = 1 then t.2.2.2.1 < 256 ∧ t.2.2.2.2.1 < 256 ∧ t.2.2.2.2.2 < 256 else t.2.2.2 = (0, 0, 0))
      else t = (0, 0, 0, 0, 0, 0)) := by
  unfold parseVideoSignal parseColour
  refine Codec.congr (Codec.optF hf (fun _ =>
    rd (fun t : Nat × Nat × Nat × Nat × Nat × Nat => t.1) ← Codec.u';
    rd (fun t : Nat × Nat × Nat × Nat × Nat × Nat => t.2.1) ← Codec.u';
    rd (fun t : Nat × Nat × Nat × Nat × Nat × Nat => t.2.2.1) as x hx ← Codec.u';
    rd (fun t : Nat × Nat × Nat × Nat × Nat × Nat => t.2.2.2) ← Codec.optF hx (fun _ =>
      rd (fun t : Nat × Nat × Nat => t.1) ← Codec.u';
      rd (fun t : Nat × Nat × Nat => t.2.1) ← Codec.u';
      rd (fun t : Nat × Nat × Nat => t.2.2) ← Codec.u';
      Codec.ret _);
    Codec.ret _)) ?_ ?_
  · rintro ⟨a, b, c, d, e, f⟩; simp
  · rintro ⟨a, b, c, d, e, f⟩ _; simp [encIf]

theorem codec_chromaLoc {f : Nat} (hf : f < 2) : Codec (parseChromaLoc f)
    (fun t => encIf (f = 1) (encUE t.1 ++ encUE t.2))
    (fun t => if f = 1 then t.1 ≤ 5 ∧ t.2 ≤ 5 else t = (0, 0)) := by
  unfold parseChromaLoc
  refine Codec.congr (Codec.optF hf (fun _ =>
    rd Prod.fst ← Codec.ueIn (by decide);
    rd Prod.snd ← Codec.ueIn (by decide);
    Codec.ret _)) ?_ ?_
  · rintro ⟨a, b⟩; simp
  · rintro ⟨a, b⟩ _; simp

theorem codec_timing {f : Nat} (hf : f < 2) : Codec (parseTiming f)
    (fun t => encIf (f = 1) (encU 32 t.1 ++ encU 32 t.2.1 ++ encU 1 t.2.2))
    (fun t => if f = 1 then (1 ≤ t.1 ∧ t.1 < 2 ^ 32) ∧ (1 ≤ t.2.1 ∧ t.2.1 < 2 ^ 32) ∧ t.2.2 < 2
              else t = (0, 0, 0)) := by
  unfold parseTiming
  refine Codec.congr (Codec.optF hf (fun _ =>
    rd (fun t : Nat × Nat × Nat => t.1) ← Codec.u';
    ck;
    rd (fun t : Nat × Nat × Nat => t.2.1) ← Codec.u';
    ck;
    rd (fun t : Nat × Nat × Nat => t.2.2) ← Codec.u';
    Codec.ret _)) ?_ ?_
  · rintro ⟨a, b, c⟩
    dsimp only
    split
    · constructor
      · rintro ⟨h1, h2, h3, h4, h5, _⟩; exact ⟨⟨h2, h1⟩, ⟨h4, h3⟩, h5⟩
      · rintro ⟨⟨h2, h1⟩, ⟨h4, h3⟩, h5⟩; exact ⟨h1, h2, h3, h4, h5, rfl⟩
    · rfl
  · rintro ⟨a, b, c⟩ _; simp only [List.append_assoc, List.append_nil]

theorem codec_optHrd {f : Nat} (hf : f < 2) : Codec (parseOptHrd f)
    (fun o => encIf (f = 1) (encOpt encHrd o))
    (fun o => if f = 1 then ∃ h, o = some h ∧ h.Ok else o = none) := by
  unfold parseOptHrd
  exact Codec.optF hf (fun _ => Codec.some codec_hrd)

theorem codec_restriction {f : Nat} (hf : f < 2) : Codec (parseRestriction f)
    (fun t => encIf (f = 1) (encU 1 t.1 ++ encUE t.2.1 ++ encUE t.2.2.1 ++ encUE t.2.2.2.1 ++ encUE t.2.2.2.2.1 ++
      encUE t.2.2.2.2.2.1 ++ encUE t.2.2.2.2.2.2))
    (fun t => if f = 1 then t.1 < 2 ∧ t.2.1 ≤ 16 ∧ t.2.2.1 ≤ 16 ∧ t.2.2.2.1 ≤ 16 ∧ t.2.2.2.2.1 ≤ 16 ∧
      t.2.2.2.2.2.1 ≤ 16 ∧ t.2.2.2.2.2.2 ≤ 16 else t = (0, 0, 0, 0, 0, 0, 0)) := by
  unfold parseRestriction
  refine Codec.congr (Codec.optF hf (fun _ =>
    rd (fun t : Nat × Nat × Nat × Nat × Nat × Nat × Nat => t.1) ← Codec.u';
    rd (fun t : Nat × Nat × Nat × Nat × Nat × Nat × Nat => t.2.1) ← Codec.ueIn (by decide);
    rd (fun t : Nat × Nat × Nat × Nat × Nat × Nat × Nat => t.2.2.1) ← Codec.ueIn (by decide);
    rd (fun t : Nat × Nat × Nat × Nat × Nat × Nat × Nat => t.2.2.2.1) ← Codec.ueIn (by decide);
    rd (fun t : Nat × Nat × Nat × Nat × Nat × Nat × Nat => t.2.2.2.2.1) ← Codec.ueIn (by decide);
    rd (fun t : Nat × Nat × Nat × Nat × Nat × Nat × Nat => t.2.2.2.2.2.1) ← Codec.ueIn (by decide);
    rd (fun t : Nat × Nat × Nat × Nat × Nat × Nat × Nat => t.2.2.2.2.2.2) ← Codec.ueIn (by decide);
    Codec.ret _)) ?_ ?_
  · rintro ⟨a, b, c, d, e, f, g⟩; simp
  · rintro ⟨a, b, c, d, e, f, g⟩ _; simp

theorem codec_vui : Codec parseVui encVui Vui.Ok := by
  unfold parseVui
  refine Codec.congr (
    rd Vui.aspect_ratio_info_present_flag as f1 h1 ← Codec.u';
    rd (fun v : Vui => (v.aspect_ratio_idc, v.sar_width, v.sar_height)) ← codec_aspect h1;
    rd Vui.overscan_info_present_flag as f2 h2 ← Codec.u';
    rd Vui.overscan_appropriate_flag ← Codec.optF h2 (fun _ => Codec.u');
    rd Vui.video_signal_type_present_flag as f3 h3 ← Codec.u';
    rd (fun v : Vui => (v.video_format, v.video_full_range_flag, v.colour_description_present_flag,
      v.colour_primaries, v.transfer_characteristics, v.matrix_coefficients)) ← codec_videoSignal h3;
    rd Vui.chroma_loc_info_present_flag as f4 h4 ← Codec.u';
    rd (fun v : Vui => (v.chroma_sample_loc_type_top_field, v.chroma_sample_loc_type_bottom_field)) ←
      codec_chromaLoc h4;
    rd Vui.timing_info_present_flag as f5 h5 ← Codec.u';
    rd (fun v : Vui => (v.num_units_in_tick, v.time_scale, v.fixed_frame_rate_flag)) ← codec_timing h5;
    rd Vui.nal_hrd_parameters_present_flag as f6 h6 ← Codec.u';
    rd Vui.nal_hrd_parameters ← codec_optHrd h6;
    rd Vui.vcl_hrd_parameters_present_flag as f7 h7 ← Codec.u';
    rd Vui.vcl_hrd_parameters ← codec_optHrd h7;
    rd Vui.low_delay_hrd_flag ← Codec.opt (fun _ => Codec.u');
    rd Vui.pic_struct_present_flag ← Codec.u';
    rd Vui.bitstream_restriction_flag as f8 h8 ← Codec.u';
    rd (fun v : Vui => (v.motion_vectors_over_pic_boundaries_flag, v.max_bytes_per_pic_denom,
      v.max_bits_per_mb_denom, v.log2_max_mv_length_horizontal, v.log2_max_mv_length_vertical,
      v.max_num_reorder_frames, v.max_dec_frame_buffering)) ← codec_restriction h8;
    Codec.ret _) ?_ ?_
  · intro v
    have hl : v.nal_hrd_parameters_present_flag < 2 → v.vcl_hrd_parameters_present_flag < 2 →
        ((v.nal_hrd_parameters_present_flag ≠ 0 ∨ v.vcl_hrd_parameters_present_flag ≠ 0) ↔
         (v.nal_hrd_parameters_present_flag = 1 ∨ v.vcl_hrd_parameters_present_flag = 1)) := by omega
    constructor
    · rintro ⟨a1, a2, a3, a4, a5, a6, a7, a8, a9, a10, a11, a12, a13, a14, a15, a16, a17, a18, -⟩
      simp only [hl a11 a13] at a15
      simp only [Prod.mk.injEq] at a2 a6 a8 a10 a18
      refine ⟨a1, ?_, ?_, a3, a4, a5, ?_, ?_, a7, a8, a9, a10, a11, a12, a13, a14, a15, a16, a17, a18⟩
      · split at a2 <;> rename_i h <;> simp only [h, if_true, if_false] <;> exact a2.1
      · split at a2
        · rename_i h
          simp only [h, true_and]; exact a2.2
        · rename_i h
          simp only [h, false_and, if_false]; exact a2.2
      · split at a6 <;> rename_i h <;> simp only [h, if_true, if_false] <;> exact ⟨a6.1, a6.2.1, a6.2.2.1⟩
      · split at a6
        · rename_i h
          simp only [h, true_and]; exact a6.2.2.2
        · rename_i h
          simp only [h, false_and, if_false]; exact a6.2.2.2
    · rintro ⟨a1, a2, a2', a3, a4, a5, a6, a6', a7, a8, a9, a10, a11, a12, a13, a14, a15, a16, a17, a18⟩
      simp only [← hl a11 a13] at a15
      refine ⟨a1, ?_, a3, a4, a5, ?_, a7, ?_, a9, ?_, a11, a12, a13, a14, a15, a16, a17, ?_, rfl⟩ <;>
        try simp only [Prod.mk.injEq]
      · split at a2 <;> rename_i h
        · simp only [h, true_and] at a2'
          simp only [h, if_true]; exact ⟨a2, a2'⟩
        · simp only [h, false_and, if_false] at a2'
          simp only [h, if_false]; exact ⟨a2, a2'⟩
      · split at a6 <;> rename_i h
        · simp only [h, true_and] at a6'
          simp only [h, if_true]; exact ⟨a6.1, a6.2.1, a6.2.2, a6'⟩
        · simp only [h, false_and, if_false] at a6'
          simp only [h, if_false]; exact ⟨a6.1, a6.2.1, a6.2.2, a6'⟩
      · exact a8
      · exact a10
      · exact a18
  · intro v ok
    have hl : (v.nal_hrd_parameters_present_flag ≠ 0 ∨ v.vcl_hrd_parameters_present_flag ≠ 0) ↔
         (v.nal_hrd_parameters_present_flag = 1 ∨ v.vcl_hrd_parameters_present_flag = 1) := by
      have := ok.nal_hrd_flag; have := ok.vcl_hrd_flag; omega
    unfold encVui
    simp only [hl]
    simp only [List.append_nil]
    simp only [List.append_assoc]
    rfl

end H264
