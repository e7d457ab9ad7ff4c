import Verif.Spec.Size
import Verif.WorkUnits

/-
How much the parsers store, compared with the number of bits they consume.
-/

namespace H264
open Prog H264.Spec

/-- What the parser stores is paid for by the bits it consumes, up to the constant `k`. -/
def Stores {α : Type} (p : Prog α) (f : α → Nat) (k : Nat) : Prop :=
  ∀ nd s a t, runL nd p s = .ok a t → f a + t.rem.length ≤ s.rem.length + k

namespace Stores
variable {α β : Type} {p : Prog α} {q : α → Prog β} {g : α → Nat} {f : β → Nat} {k k1 k2 : Nat}

theorem any (p : Prog α) : Stores p (fun _ => 0) 0 := fun _ _ _ _ h => by have := runL_le h; dsimp only; omega

theorem mono {g' : α → Nat} (h : Stores p g k) (hg : ∀ a, g' a ≤ g a) : Stores p g' k := fun nd s a t e => by
  have := h nd s a t e
  have := hg a
  omega

theorem more (h : Stores p g k1) (hk : k1 ≤ k) : Stores p g k := fun nd s a t e => by
  have := h nd s a t e
  omega

theorem use (h : Stores p g 0) (hq : ∀ a, Stores (q a) (fun b => f b - g a) k) : Stores (p >>= q) f k := by
  intro nd s b t e
  obtain ⟨a, r, h1, h2⟩ := runL_bind_ok.mp e
  have := h nd s a r h1
  have := hq a nd r b t h2
  dsimp only at this
  omega

theorem last (h : Stores p g k) (hq : ∀ a, Stores (q a) (fun b => f b - g a) 0) : Stores (p >>= q) f k := by
  intro nd s b t e
  obtain ⟨a, r, h1, h2⟩ := runL_bind_ok.mp e
  have := h nd s a r h1
  have := hq a nd r b t h2
  dsimp only at this
  omega

theorem skip (hq : ∀ a, Stores (q a) f k) : Stores (p >>= q) f k :=
  use (any p) (fun a => (hq a).mono (fun _ => Nat.sub_le _ _))

theorem ret {a : α} (h : g a ≤ k) : Stores (Prog.ret a) g k := by
  intro nd s b t e
  rw [runL_ret] at e
  obtain ⟨rfl, rfl⟩ := Out.ok.inj e
  omega
theorem pure {a : α} (h : g a ≤ k) : Stores (Pure.pure a) g k := ret h

theorem null : Stores (Prog.null : Prog α) g k := fun _ _ _ _ e => by cases e

theorem opt {c : Prop} [Decidable c] {d : α} (hp : c → Stores p g k) (hd : g d ≤ k) : Stores (Prog.opt c d p) g k := by
  unfold Prog.opt
  split
  · exact hp ‹_›
  · exact pure hd

theorem ite {c : Prop} [Decidable c] {p' : Prog α} (h1 : c → Stores p g k) (h2 : ¬ c → Stores p' g k) :
    Stores (if c then p else p') g k := by
  split
  · exact h1 ‹_›
  · exact h2 ‹_›

theorem attempt (h : Stores p g k) : Stores p.attempt (pointee g) k := by
  intro nd s a t e
  rw [runL_attempt] at e
  have hd := runL_drop nd p s
  cases hr : runL nd p s with
  | ok x r =>
    rw [hr] at e
    obtain ⟨rfl, rfl⟩ := Out.ok.inj e
    exact h nd s x r hr
  | null r =>
    rw [hr] at e hd
    obtain ⟨rfl, rfl⟩ := Out.ok.inj e
    obtain ⟨⟨n, _, h2⟩, _⟩ := hd
    rw [h2, List.length_drop]
    show 0 + _ ≤ _
    omega
  | bad x => rw [hr] at e; cases e

theorem u {n : Nat} (hn : 1 ≤ n) : Stores (Prog.u n) (fun _ => 1) 0 := fun nd s a t e => by
  have := Takes.u n nd s a t e
  dsimp only
  omega

theorem ue : Stores Prog.ue (fun _ => 1) 0 := by
  intro nd s a t e
  obtain ⟨_, r, h, rfl⟩ := (Codec.ue nd s.rem s.cnt a t).mp e
  rw [h, List.length_append, length_encUE]
  dsimp only
  omega

theorem se : Stores Prog.se (fun _ => 1) 0 := by
  intro nd s a t e
  obtain ⟨_, r, h, rfl⟩ := (Codec.se nd s.rem s.cnt a t).mp e
  rw [h, List.length_append, encSE, length_encUE]
  dsimp only
  omega

theorem rep (h : Stores p g 0) : ∀ n, Stores (p.rep n) (fun l => (l.map g).sum) 0
  | 0 => pure (Nat.le_refl _)
  | n + 1 => by
    unfold Prog.rep
    refine use h (fun a => use (rep h n) (fun l => pure ?_))
    simp only [List.map_cons, List.sum_cons]
    omega

theorem loopN {p : Prog (Option α)} {g : Option α → Nat} (h : Stores p g 0) :
    ∀ n, Stores (p.loopN n) (fun l => (l.map fun a => g (some a)).sum + g none) 0
  | 0 => fun _ _ _ _ e => by cases e
  | n + 1 => by
    unfold Prog.loopN
    refine use h (fun o => ?_)
    cases o with
    | none => exact pure (by simp)
    | some a =>
      refine use (loopN h n) (fun l => pure ?_)
      simp only [List.map_cons, List.sum_cons]
      omega

theorem loop {p : Prog (Option α)} {g : Option α → Nat} (h : Stores p g 0) :
    Stores p.loop (fun l => (l.map fun a => g (some a)).sum + g none) 0 :=
  skip fun n => loopN h (n + 1)

end Stores

theorem sum_const {α : Type} (c : Nat) (l : List α) : (l.map fun _ => c).sum = c * l.length := by
  induction l with
  | nil => rfl
  | cons x l ih => simp only [List.map_cons, List.sum_cons, List.length_cons, ih, Nat.mul_succ]; omega

/-! ### Parameter sets -/

theorem fits_hrd : Stores parseHrd hrdEntries 0 := by
  have h : Stores parseHrdEntry (fun _ => 3) 0 := by
    unfold parseHrdEntry
    exact .use .ue (fun _ => .use .ue (fun _ => .use (.u (Nat.le_refl _)) (fun _ => .pure (Nat.le_refl _))))
  unfold parseHrd
  refine .skip fun _ => .skip fun _ => .skip fun _ => .use (h.rep _) (fun es => ?_)
  refine .skip fun _ => .skip fun _ => .skip fun _ => .skip fun _ => .pure ?_
  simp only [hrdEntries, List.length_map, sum_const]
  omega

theorem fits_optHrd (f : Nat) : Stores (parseOptHrd f) (pointee hrdEntries) 0 := by
  unfold parseOptHrd
  exact .opt (fun _ => .use fits_hrd (fun _ => .pure (by simp [pointee]))) (by simp [pointee])

theorem fits_vui : Stores parseVui vuiEntries 0 := by
  unfold parseVui
  refine .skip fun _ => .skip fun _ => .skip fun _ => .skip fun _ => .skip fun _ => .skip fun _ => .skip fun _ => .skip fun _ => ?_
  refine .skip fun _ => .skip fun _ => .skip fun _ => .use (fits_optHrd _) (fun a => ?_)
  refine .skip fun _ => .use (fits_optHrd _) (fun b => ?_)
  refine .skip fun _ => .skip fun _ => .skip fun _ => .skip fun _ => .pure ?_
  simp only [vuiEntries]
  omega

theorem fits_optVui (f : Nat) : Stores (parseOptVui f) (pointee vuiEntries) 0 := by
  unfold parseOptVui
  exact .opt (fun _ => .use fits_vui (fun _ => .pure (by simp [pointee]))) (by simp [pointee])

theorem setGrow_length_le {v : List Nat} {i x m : Nat} (hv : v.length ≤ m) (hi : i < m) : (setGrow v i x).length ≤ m := by
  unfold setGrow
  rw [List.length_set, List.length_append, List.length_replicate]
  omega

/-- The three lists that scaling lists fill have at most 16, 6 and 64 elements. -/
def ScalSmall (s : Scal) : Prop :=
  s.ScalingList4x4.length ≤ 16 ∧ s.UseDefaultScalingMatrix4x4Flag.length ≤ 6 ∧ s.ScalingList8x8.length ≤ 64

theorem scalingLoop_small {i m : Nat} (hi : i < 6) (nd : Bool) : ∀ (n j last next : Nat) (s : SLSt) (q t : LSt) (r : Bool × SLSt),
    j + n ≤ m → s.list.length ≤ m → s.useDef.length ≤ 6 → runL nd (scalingLoop i n j last next s) q = .ok r t →
    r.2.list.length ≤ m ∧ r.2.useDef.length ≤ 6 := by
  intro n
  induction n with
  | zero =>
    intro j last next s q t r _ h1 h2 e
    rw [scalingLoop, Prog.pure_eq, runL_ret] at e
    obtain ⟨rfl, rfl⟩ := Out.ok.inj e
    exact ⟨h1, h2⟩
  | succ n ih =>
    intro j last next s q t r hj h1 h2 e
    rw [scalingLoop] at e
    split at e
    · obtain ⟨d, q1, _, e⟩ := runL_bind_ok.mp e
      cases d with
      | none =>
        rw [Prog.pure_eq, runL_ret] at e
        obtain ⟨rfl, rfl⟩ := Out.ok.inj e
        exact ⟨h1, h2⟩
      | some d =>
        dsimp only at e
        split at e
        · rw [Prog.pure_eq, runL_ret] at e
          obtain ⟨rfl, rfl⟩ := Out.ok.inj e
          exact ⟨h1, h2⟩
        · obtain ⟨x, q2, _, e⟩ := runL_bind_ok.mp e
          obtain ⟨y, q3, _, e⟩ := runL_bind_ok.mp e
          exact ih (j + 1) _ _ _ _ _ _ (by omega) (setGrow_length_le h1 (by omega)) (setGrow_length_le h2 hi) e
    · exact ih (j + 1) _ _ _ _ _ _ (by omega) (setGrow_length_le (m := m) h1 (by omega)) (by exact h2) e

theorem scalingLists_small (nd : Bool) : ∀ (n i : Nat) (s : Scal) (q t : LSt) (r : Scal), i + n ≤ 12 → ScalSmall s →
    runL nd (scalingLists n i s) q = .ok r t →
    ScalSmall r ∧ r.scaling_list_present_flag.length = s.scaling_list_present_flag.length + n ∧ t.rem.length + n ≤ q.rem.length := by
  intro n
  induction n with
  | zero =>
    intro i s q t r _ h e
    rw [scalingLists, Prog.pure_eq, runL_ret] at e
    obtain ⟨rfl, rfl⟩ := Out.ok.inj e
    exact ⟨h, rfl, Nat.le_refl _⟩
  | succ n ih =>
    intro i s q t r hi h e
    rw [scalingLists] at e
    obtain ⟨f, q1, h1, e⟩ := runL_bind_ok.mp e
    have := Takes.u 1 nd q f q1 h1
    obtain ⟨s', q2, h2, e⟩ := runL_bind_ok.mp e
    have := runL_le h2
    have hs : ScalSmall s' ∧ s'.scaling_list_present_flag.length = s.scaling_list_present_flag.length + 1 := by
      unfold Prog.opt at h2
      split at h2
      · unfold scalingCall at h2
        split at h2
        · obtain ⟨x, q3, h3, e3⟩ := runL_bind_ok.mp h2
          obtain ⟨a, b⟩ := scalingLoop_small (by omega) nd 16 0 8 8 _ _ _ _ (by omega) h.1 h.2.1 h3
          rw [Prog.pure_eq, runL_ret] at e3
          obtain ⟨rfl, rfl⟩ := Out.ok.inj e3
          exact ⟨⟨a, b, h.2.2⟩, by simp⟩
        · obtain ⟨x, q3, h3, e3⟩ := runL_bind_ok.mp h2
          obtain ⟨a, b⟩ := scalingLoop_small (by omega) nd 64 0 8 8 _ _ _ _ (by omega) h.2.2 h.2.1 h3
          rw [Prog.pure_eq, runL_ret] at e3
          obtain ⟨rfl, rfl⟩ := Out.ok.inj e3
          exact ⟨⟨h.1, b, a⟩, by simp⟩
      · rw [Prog.pure_eq, runL_ret] at h2
        obtain ⟨rfl, rfl⟩ := Out.ok.inj h2
        exact ⟨h, by simp⟩
    obtain ⟨a, b, c⟩ := ih _ _ _ _ _ (by omega) hs.1 e
    exact ⟨a, by omega, by omega⟩

theorem fits_scal {n : Nat} (hn : n ≤ 12) : Stores (scalingLists n 0 {}) scalEntries 86 := by
  intro nd s a t e
  obtain ⟨⟨h1, h2, h3⟩, h4, h5⟩ := scalingLists_small nd n 0 {} s t a (by omega) ⟨by simp, by simp, by simp⟩ e
  simp only [scalEntries]
  have : ([] : List Nat).length = 0 := rfl
  rw [this] at h4
  omega

theorem fits_poc (t : Nat) : Stores (parsePoc t) (fun p => p.2.2.2.2.2.length) 0 := by
  unfold parsePoc
  refine .ite (fun _ => .skip fun _ => .pure (by simp)) (fun _ => .opt (fun _ => ?_) (by simp))
  refine .skip fun _ => .skip fun _ => .skip fun _ => .skip fun _ => .use (Stores.se.rep _) (fun l => .pure ?_)
  simp only [sum_const]
  omega

theorem fits_spsTail (h : SpsHead) :
    Stores (parseSpsTail h) (fun t => t.offset_for_ref_frame.length + pointee vuiEntries t.vui_parameters) 0 := by
  unfold parseSpsTail
  refine .skip fun _ => .skip fun _ => .use (fits_poc _) (fun p => ?_)
  refine .skip fun _ => .skip fun _ => .skip fun _ => .skip fun _ => .skip fun _ => .skip fun _ => .skip fun _ => .skip fun _ => ?_
  refine .skip fun _ => .skip fun _ => .use (fits_optVui _) (fun v => .pure ?_)
  dsimp only
  omega

theorem fits_spsData : Stores parseSpsData spsEntries 86 := by
  unfold parseSpsData
  refine .skip fun h => .last (g := scalEntries) (.opt (fun _ => fits_scal ?_) (by simp [scalEntries]))
    (fun s => .use (fits_spsTail h) (fun t => .pure ?_))
  · split <;> omega
  · simp only [spsEntries]
    omega

theorem fits_sps : Stores parseSps spsEntries 86 := by
  unfold parseSps
  exact .last fits_spsData (fun _ => .skip fun _ => .pure (by simp))

theorem fits_subset : Stores parseSubsetSps subsetEntries 86 := by
  unfold parseSubsetSps
  exact .last fits_spsData (fun _ => .skip fun _ => .skip fun _ => .skip fun _ => .pure (by simp [subsetEntries]))

theorem fits_sliceGroups (n : Nat) : Stores (parseSliceGroups n)
    (fun g => g.run_length_minus1.length + g.top_left.length + g.bottom_right.length + g.slice_group_id.length) 0 := by
  unfold parseSliceGroups
  refine .opt (fun hn => .skip fun t => .ite (fun _ => ?_) (fun _ => .ite (fun _ => ?_) (fun _ => .ite (fun _ => ?_) (fun _ =>
    .ite (fun _ => ?_) (fun _ => .pure (by simp)))))) (by simp)
  · refine .use (Stores.ue.rep _) (fun l => .pure ?_)
    simp only [sum_const, List.length_nil]
    omega
  · have h : Stores parseTopLeftBottomRight (fun _ => 2) 0 := by
      unfold parseTopLeftBottomRight
      exact .use .ue (fun _ => .use .ue (fun _ => .pure (by omega)))
    refine .use (h.rep _) (fun l => .pure ?_)
    simp only [sum_const, List.length_map, List.length_nil]
    omega
  · exact .skip fun _ => .skip fun _ => .skip fun _ => .pure (by simp)
  · have hl : 1 ≤ sliceGroupIdLen n := by
      unfold sliceGroupIdLen ceilLog2
      rw [if_neg (by omega)]
      omega
    refine .skip fun _ => .use ((Stores.u hl).rep _) (fun l => .pure ?_)
    simp only [sum_const, List.length_nil]
    omega

theorem fits_ppsHead : Stores parsePpsHead
    (fun g => g.run_length_minus1.length + g.top_left.length + g.bottom_right.length + g.slice_group_id.length) 0 := by
  unfold parsePpsHead
  refine .skip fun _ => .skip fun _ => .skip fun _ => .skip fun _ => .skip fun _ => .use (fits_sliceGroups _) (fun g => ?_)
  refine .skip fun _ => .skip fun _ => .skip fun _ => .skip fun _ => .skip fun _ => .skip fun _ => .skip fun _ => .skip fun _ => ?_
  refine .skip fun _ => .skip fun _ => .pure ?_
  dsimp only
  omega

theorem fits_ppsExt (c : Nat) : Stores (parsePpsExt c) (fun e => scalEntries e.2.2.1) 86 := by
  unfold parsePpsExt
  intro nd s a t e
  obtain ⟨f, s1, h1, e⟩ := runL_bind_ok.mp e
  have hf : f < 2 := by
    have := ((Codec.u (n := 1) (by omega) (by omega)) nd s.rem s.cnt f s1).mp h1
    simpa using this.1
  have hle := runL_le h1
  refine Nat.le_trans ?_ (Nat.add_le_add_right hle 86)
  refine (Stores.skip (f := fun e : Nat × Nat × Scal × Int => scalEntries e.2.2.1) fun m => .last (g := scalEntries) (.opt (fun _ => fits_scal ?_) (by simp [scalEntries]))
    (fun s => .skip fun q => .pure (by dsimp only; omega))) nd s1 a t e
  have : f = 0 ∨ f = 1 := by omega
  rcases this with rfl | rfl <;> split <;> omega

theorem fits_pps (c : Nat) : Stores (parsePps c) ppsEntries 86 := by
  unfold parsePps
  refine .use fits_ppsHead (fun h => .skip fun _ => .last (g := fun e => scalEntries e.2.2.1)
    (.opt (fun _ => fits_ppsExt c) (by simp [scalEntries])) (fun e => .skip fun _ => .pure ?_))
  simp only [ppsEntries]
  omega

/-! ### Slices -/

theorem fits_modList : Stores parseModList (fun x => 2 * x.2.length + if x.1 ≠ 0 then 1 else 0) 0 := by
  have h : Stores parseModOp (fun o => o.elim 0 fun _ => 2) 0 := by
    unfold parseModOp
    refine .use .ue (fun _ => .skip fun _ => .ite (fun _ => .use .ue (fun _ => .pure (by simp))) (fun _ =>
      .ite (fun _ => .use .ue (fun _ => .pure (by simp))) (fun _ => .pure (by simp))))
  unfold parseModList
  refine .use (.u (by omega)) (fun f => .use (g := fun l => 2 * l.length)
    (.opt (fun _ => h.loop.mono (fun l => ?_)) (by simp)) (fun l => .pure ?_))
  · simp only [Option.elim, sum_const]
    omega
  · dsimp only
    split <;> omega

theorem filter_two {α : Type} (a b : α → Bool) (h : ∀ x, ¬ (a x = true ∧ b x = true)) (l : List α) :
    (l.filter a).length + (l.filter b).length ≤ l.length := by
  induction l with
  | nil => simp
  | cons x l ih =>
    have := h x
    simp only [List.filter_cons, List.length_cons]
    cases ha : a x <;> cases hb : b x <;> simp_all <;> omega

theorem fits_mod (t : Nat) : Stores (parseRefPicListMod t) modEntries 0 := by
  unfold parseRefPicListMod
  refine .use (.opt (fun _ => fits_modList) (by simp)) (fun l0 => .use (.opt (fun _ => fits_modList) (by simp)) (fun l1 => .pure ?_))
  have h := filter_two (fun o : Nat × Nat => decide (o.1 ≤ 1)) (fun o => decide (o.1 = 2)) (by simp; omega) (l0.2 ++ l1.2)
  simp only [modEntries, RefPicListMod.modification_of_pic_nums_idc, RefPicListMod.abs_diff_pic_num_minus1,
    RefPicListMod.long_term_pic_num, List.length_map, List.length_append] at h ⊢
  have a0 : (if l0.1 ≠ 0 then l0.2.map (·.1) ++ [3] else []).length ≤ l0.2.length + if l0.1 ≠ 0 then 1 else 0 := by
    split <;> simp
  have a1 : (if l1.1 ≠ 0 then l1.2.map (·.1) ++ [3] else []).length ≤ l1.2.length + if l1.1 ≠ 0 then 1 else 0 := by
    split <;> simp
  omega

/-- The number of vector elements that one operation fills. -/
def mmcoEntries (o : Mmco) : Nat :=
  1 + (if o.memory_management_control_operation = 1 ∨ o.memory_management_control_operation = 3 then 1 else 0) +
  (if o.memory_management_control_operation = 2 then 1 else 0) +
  (if o.memory_management_control_operation = 3 ∨ o.memory_management_control_operation = 6 then 1 else 0) +
  (if o.memory_management_control_operation = 4 then 1 else 0)

theorem fits_mmcoBody : Stores parseMmcoBody mmcoEntries 0 := by
  have h : ∀ (c : Prop) [Decidable c], Stores (Prog.opt c 0 Prog.ue) (fun _ => if c then 1 else 0) 0 := by
    intro c _
    unfold Prog.opt
    by_cases hc : c
    · rw [if_pos hc]; exact Stores.ue.mono (fun _ => by rw [if_pos hc]; omega)
    · rw [if_neg hc]; exact .pure (by rw [if_neg hc]; omega)
  unfold parseMmcoBody
  refine .use .ue (fun op => .skip fun _ => .use (h _) (fun _ => .use (h _) (fun _ => .use (h _) (fun _ => .use (h _) (fun _ => .pure ?_)))))
  simp only [mmcoEntries]
  omega

theorem fits_mmco : Stores parseMmco (fun o => o.elim 0 mmcoEntries) 0 := by
  unfold parseMmco
  refine .use fits_mmcoBody (fun o => .pure ?_)
  split <;> simp [Option.elim]

theorem mmco_sum (l : List Mmco) : l.length + (l.filter (fun o => decide (o.memory_management_control_operation = 1 ∨
    o.memory_management_control_operation = 3))).length + (l.filter (fun o => decide (o.memory_management_control_operation = 2))).length +
    (l.filter (fun o => decide (o.memory_management_control_operation = 3 ∨ o.memory_management_control_operation = 6))).length +
    (l.filter (fun o => decide (o.memory_management_control_operation = 4))).length = (l.map mmcoEntries).sum := by
  induction l with
  | nil => rfl
  | cons o l ih =>
    have hf : ∀ (c : Mmco → Prop) [DecidablePred c], ((o :: l).filter fun o => decide (c o)).length =
        (if c o then 1 else 0) + (l.filter fun o => decide (c o)).length := by
      intro c _
      rw [List.filter_cons]
      by_cases h : c o
      · simp [h]; omega
      · simp [h]
    rw [hf, hf, hf, hf, List.length_cons, List.map_cons, List.sum_cons, ← ih]
    simp only [mmcoEntries]
    omega

theorem fits_marking (i : Nat) : Stores (parseDecRefPicMarking i) markingEntries 0 := by
  unfold parseDecRefPicMarking
  refine .ite (fun _ => .skip fun _ => .skip fun _ => .pure (by simp [markingEntries, DecRefPicMarking.memory_management_control_operation,
    DecRefPicMarking.difference_of_pic_nums_minus1, DecRefPicMarking.long_term_pic_num, DecRefPicMarking.long_term_frame_idx,
    DecRefPicMarking.max_long_term_frame_idx_plus1])) (fun _ => ?_)
  refine .use (.u (by omega)) (fun f => .use (g := fun l => (l.map mmcoEntries).sum)
    (.opt (fun _ => fits_mmco.loop.mono (fun l => ?_)) (by simp)) (fun l => .pure ?_))
  · exact Nat.le_add_right _ _
  · have h := mmco_sum l
    have a : (if f ≠ 0 then l.map (·.memory_management_control_operation) ++ [0] else []).length ≤ l.length + 1 := by
      split <;> simp
    simp only [markingEntries, DecRefPicMarking.memory_management_control_operation,
      DecRefPicMarking.difference_of_pic_nums_minus1, DecRefPicMarking.long_term_pic_num, DecRefPicMarking.long_term_frame_idx,
      DecRefPicMarking.max_long_term_frame_idx_plus1, List.length_map]
    omega

/-- The number of vector elements that the weights of one picture fill. -/
def oneWeight (cat : Nat) (w : Weight) : Nat :=
  1 + (if w.luma_weight_flag ≠ 0 then 2 else 0) + (if cat ≠ 0 then 1 else 0) + (if w.chroma_weight_flag ≠ 0 then 4 else 0)

theorem Stores.optC {α : Type} {p : Prog α} {n : Nat} {c : Prop} [Decidable c] {d : α} (h : Stores p (fun _ => n) 0) :
    Stores (Prog.opt c d p) (fun _ => if c then n else 0) 0 := by
  unfold Prog.opt
  by_cases hc : c
  · simp only [if_pos hc]; exact h
  · simp only [if_neg hc]; exact .pure (Nat.le_refl _)

theorem fits_weight (cat : Nat) : Stores (parseWeight cat) (oneWeight cat) 0 := by
  have hl : Stores parseLumaWeight (fun _ => 2) 0 := by
    unfold parseLumaWeight
    exact .use .se (fun _ => .use .se (fun _ => .pure (by omega)))
  have hc : Stores (Prog.opt (cat ≠ 0) (0, 0, 0, 0, 0) parseChromaWeight)
      (fun x => (if cat ≠ 0 then 1 else 0) + if x.1 ≠ 0 then 4 else 0) 0 := by
    unfold Prog.opt
    by_cases h : cat ≠ 0
    · simp only [if_pos h]
      unfold parseChromaWeight
      refine .use (.u (by omega)) (fun f => .use (.optC (n := 4) ?_) (fun c => .pure ?_))
      · exact .use .se (fun _ => .use .se (fun _ => .use .se (fun _ => .use .se (fun _ => .pure (by omega)))))
      · dsimp only
        omega
    · simp only [if_neg h]
      exact .pure (by simp)
  unfold parseWeight
  refine .use (.u (by omega)) (fun f => .use (.optC hl) (fun l => .use hc (fun c => .pure ?_)))
  simp only [oneWeight]
  omega

theorem weight_sum (cat : Nat) (l : List Weight) : weightEntries cat l = (l.map (oneWeight cat)).sum := by
  induction l with
  | nil => simp [weightEntries, lumaFlags, lumaWeights, lumaOffsets, chromaFlags, chromaWeights, chromaOffsets]
  | cons w l ih =>
    rw [List.map_cons, List.sum_cons, ← ih]
    simp only [weightEntries, lumaFlags, lumaWeights, lumaOffsets, chromaFlags, chromaWeights, chromaOffsets, oneWeight,
      List.filter_cons, List.map_cons, List.length_cons, List.length_map]
    by_cases h1 : w.luma_weight_flag = 0 <;> by_cases h2 : w.chroma_weight_flag = 0 <;> by_cases h3 : cat = 0 <;>
      simp [h1, h2, h3] <;> omega

theorem fits_table (cat t n m : Nat) : Stores (parsePredWeightTable cat t n m) tableEntries 0 := by
  unfold parsePredWeightTable
  refine .skip fun _ => .skip fun _ => .use ((fits_weight cat).rep _) (fun l0 => .use (g := fun l => (l.map (oneWeight cat)).sum)
    (.opt (fun _ => (fits_weight cat).rep _) (by simp)) (fun l1 => .pure ?_))
  simp only [tableEntries, weight_sum]
  omega

theorem fits_some {α : Type} {p : Prog α} {g : α → Nat} {k : Nat} {c : Prop} [Decidable c] (h : Stores p g k) :
    Stores (Prog.opt c none (do let x ← p; Pure.pure (some x))) (pointee g) k :=
  .opt (fun _ => .last h (fun _ => .pure (by simp [pointee]))) (by simp [pointee])

theorem fits_poc1 (a b c d : Nat) : Stores (parsePoc1 a b c d) List.length 0 := by
  unfold parsePoc1
  refine .opt (fun _ => .use .se (fun _ => .use (g := List.length)
    (.opt (fun _ => .use .se (fun _ => .pure (by simp))) (by simp)) (fun l => .pure ?_))) (by simp)
  simp only [List.length_cons]
  omega

theorem fits_sliceMod (n t : Nat) : Stores (parseSliceMod n t) modEntries 0 := by
  unfold parseSliceMod
  exact .ite (fun _ => .skip fun _ => .null) (fun _ => fits_mod t)

theorem fits_sliceBody (r n : Nat) (s : SpsData) (p : Pps) (x : Nat × Nat × Nat) : Stores (parseSliceBody r n s p x) sliceEntries 0 := by
  unfold parseSliceBody
  refine .skip fun _ => .skip fun _ => .skip fun _ => .skip fun _ => .skip fun _ => .use (fits_poc1 _ _ _ _) (fun d => ?_)
  refine .skip fun _ => .skip fun _ => .skip fun _ => .use (fits_sliceMod _ _) (fun m => ?_)
  refine .use (fits_some (fits_table _ _ _ _)) (fun w => .use (fits_some (fits_marking _)) (fun k => ?_))
  refine .skip fun _ => .skip fun _ => .skip fun _ => .skip fun _ => .skip fun _ => .pure ?_
  simp only [sliceEntries, pointee]
  omega

theorem fits_slice (σ : Store) (r n : Nat) : Stores (parseSliceHeader σ r n) sliceEntries 0 := by
  unfold parseSliceHeader
  refine .skip fun x => ?_
  split
  · exact .null
  · split
    · exact .null
    · exact fits_sliceBody _ _ _ _ _

theorem fits_scalPic (s : SpsData) (p : Pps) (n : SvcHeaderExt) (cp fn : Nat) (fp : Nat × Nat) :
    Stores (parseScalPic s p n cp fn fp) (fun x => x.delta_pic_order_cnt.length) 0 := by
  unfold parseScalPic
  exact .skip fun _ => .skip fun _ => .use (fits_poc1 _ _ _ _) (fun d => .skip fun _ => .pure (by simp))

theorem fits_scalRef (ref t cat : Nat) (p : Pps) (e : SpsSvcExt) (n : SvcHeaderExt) : Stores (parseScalRef ref t cat p e n)
    (fun r => pointee modEntries r.ref_pic_list_modification + pointee tableEntries r.pred_weight_table +
      pointee markingEntries r.dec_ref_pic_marking) 0 := by
  unfold parseScalRef
  refine .skip fun _ => .skip fun _ => .use (fits_mod _) (fun m => ?_)
  refine .use (g := fun w => pointee tableEntries w.2) (.opt (fun _ => ?_) (by simp [pointee])) (fun w => ?_)
  · unfold parseScalWeights
    exact .skip fun _ => .use (fits_some (fits_table _ _ _ _)) (fun _ => .pure (by simp))
  refine .use (g := fun d => pointee markingEntries d.1) (.opt (fun _ => ?_) (by simp [pointee])) (fun d => .pure ?_)
  · exact .use (fits_marking _) (fun _ => .skip fun _ => .pure (by simp [pointee]))
  simp only [pointee]
  omega

theorem fits_scalBody (ref type : Nat) (s : SpsData) (p : Pps) (e : SpsSvcExt) (n : SvcHeaderExt) (x : Nat × Nat × Nat)
    (cp fn : Nat) (fp : Nat × Nat) : Stores (parseScalBody ref type s p e n x cp fn fp) scalableEntries 0 := by
  unfold parseScalBody
  refine .use (fits_scalPic _ _ _ _ _ _) (fun pic => .use (.opt (fun _ => fits_scalRef _ _ _ _ _ _) (by simp [pointee])) (fun r => ?_))
  refine .skip fun _ => .skip fun _ => .skip fun _ => .skip fun _ => .pure ?_
  simp only [scalableEntries]
  omega

theorem fits_scalHeader (σ : Store) (h : NalHeader) : Stores (parseScalHeader σ h) scalableEntries 0 := by
  unfold parseScalHeader
  refine .skip fun x => ?_
  split
  · exact .null
  · split
    · exact .null
    · split
      · exact .null
      · refine .skip fun _ => .skip fun _ => .skip fun _ => ?_
        split
        · exact .null
        · exact fits_scalBody _ _ _ _ _ _ _ _ _ _

/-! ### Payloads -/

theorem fits_payload (σ : Store) (h : NalHeader) : Stores (parsePayload σ h) (fun x => payloadEntries x.1) 86 := by
  unfold parsePayload
  refine .ite (fun _ => ?_) (fun _ => .ite (fun _ => ?_) (fun _ => .ite (fun _ => ?_) (fun _ => .ite (fun _ => ?_) (fun _ =>
    .ite (fun _ => ?_) (fun _ => .ite (fun _ => ?_) (fun _ => .pure (by simp [payloadEntries, pointee])))))))
  · refine .use (Stores.attempt (g := fun l => pointee sliceEntries l.slice_header) ?_) (fun x => .pure ?_)
    · unfold parseSliceLayer
      exact .use (fits_slice σ _ _) (fun _ => .pure (by simp [pointee]))
    · simp [payloadEntries, pointee]
  · exact .last fits_sps.attempt (fun x => .pure (by simp [payloadEntries, pointee]))
  · exact .last (fits_pps 1).attempt (fun x => .pure (by simp [payloadEntries, pointee]))
  · exact .skip fun x => .pure (by simp [payloadEntries, pointee])
  · exact .last fits_subset.attempt (fun x => .pure (by simp [payloadEntries, pointee]))
  · refine .use (Stores.attempt (g := fun l => pointee scalableEntries l.slice_header_in_scalable_extension +
      pointee sliceEntries l.slice_header) ?_) (fun x => .pure ?_)
    · unfold parseSliceLayerExt
      refine .ite (fun _ => .use (fits_scalHeader σ h).attempt (fun _ => .pure (by simp [pointee]))) (fun _ =>
        .ite (fun _ => .pure (by simp [pointee])) (fun _ => .use (fits_slice σ _ _) (fun _ => .pure (by simp [pointee]))))
    · simp [payloadEntries, pointee]

end H264
