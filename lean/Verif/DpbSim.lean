import Verif.DpbRead

/-
The simulation of the reference pictures, for frames that are read from pictures (Spec/DpbScript.lean).
-/

namespace H264.Dpb

/-! ### Operations -/

theorem changeFirst_eq {p q : Entry → Bool} {f : Entry → Entry} (i : Nat) (hp : ∀ e, p e = q e) (hf : ∀ e, f e = { e with ltr := some i }) :
    ∀ d, makeLong p i d = Spec.changeFirst q f d
  | [] => rfl
  | e :: t => by rw [makeLong, Spec.changeFirst, hp e, hf e, changeFirst_eq i hp hf t]

/-- The operands of operations. -/
def diffsOf (ops : List Mmco) : List Nat :=
  (ops.filter (fun o => decide (o.memory_management_control_operation = 1 ∨ o.memory_management_control_operation = 3))).map (·.difference_of_pic_nums_minus1)
def idxsOf (ops : List Mmco) : List Nat :=
  (ops.filter (fun o => decide (o.memory_management_control_operation = 3 ∨ o.memory_management_control_operation = 6))).map (·.long_term_frame_idx)
def maxsOf (ops : List Mmco) : List Nat :=
  (ops.filter (fun o => decide (o.memory_management_control_operation = 4))).map (·.max_long_term_frame_idx_plus1)

theorem op_cases {o : Mmco} (h : o.Ok) : o.memory_management_control_operation = 1 ∨ o.memory_management_control_operation = 2 ∨
    o.memory_management_control_operation = 3 ∨ o.memory_management_control_operation = 4 ∨ o.memory_management_control_operation = 5 ∨
    o.memory_management_control_operation = 6 := by
  have := h.op
  omega

theorem markOps_eq (fn : Nat) : ∀ (ops : List Mmco), (∀ o ∈ ops, o.Ok) → ∀ d : List Entry,
    markOps fn (ops.map (·.memory_management_control_operation) ++ [0]) (diffsOf ops) (idxsOf ops) (maxsOf ops) d =
      .ok (ops.foldl (Spec.operate fn) d)
  | [], _, d => by simp [markOps]
  | o :: ops, h, d => by
    have ih := markOps_eq fn ops (fun x hx => h x (by simp [hx]))
    rw [List.map_cons, List.cons_append, markOps.eq_def, List.foldl_cons, ← ih]
    dsimp only
    have hd : ∀ e : Entry, decide (e.ltr = none ∧ (e.frame_num : Int) = (fn : Int) - ((o.difference_of_pic_nums_minus1 : Int) + 1)) =
        decide (e.ltr = none ∧ e.frame_num + (o.difference_of_pic_nums_minus1 + 1) = fn) := by
      intro e
      apply decide_eq_decide.mpr
      constructor
      · rintro ⟨a, b⟩; exact ⟨a, by omega⟩
      · rintro ⟨a, b⟩; exact ⟨a, by omega⟩
    rcases op_cases (h o (by simp)) with e | e | e | e | e | e
    · have e1 : diffsOf (o :: ops) = o.difference_of_pic_nums_minus1 :: diffsOf ops := by simp [diffsOf, e]
      have e2 : idxsOf (o :: ops) = idxsOf ops := by simp [idxsOf, e]
      have e3 : maxsOf (o :: ops) = maxsOf ops := by simp [maxsOf, e]
      rw [e1, e2, e3, if_neg (by omega), if_pos e]
      dsimp only
      congr 1
      simp only [Spec.operate, e]
      refine List.filter_congr fun x _ => ?_
      rw [← hd x, decide_not]
    · have e1 : diffsOf (o :: ops) = diffsOf ops := by simp [diffsOf, e]
      have e2 : idxsOf (o :: ops) = idxsOf ops := by simp [idxsOf, e]
      have e3 : maxsOf (o :: ops) = maxsOf ops := by simp [maxsOf, e]
      rw [e1, e2, e3, if_neg (by omega), if_neg (by omega), if_pos e]
      simp only [Spec.operate, e]
    · have e1 : diffsOf (o :: ops) = o.difference_of_pic_nums_minus1 :: diffsOf ops := by simp [diffsOf, e]
      have e2 : idxsOf (o :: ops) = o.long_term_frame_idx :: idxsOf ops := by simp [idxsOf, e]
      have e3 : maxsOf (o :: ops) = maxsOf ops := by simp [maxsOf, e]
      rw [e1, e2, e3, if_neg (by omega), if_neg (by omega), if_neg (by omega), if_pos e]
      dsimp only
      congr 1
      simp only [Spec.operate, e]
      exact changeFirst_eq _ hd (fun _ => rfl) d
    · have e1 : diffsOf (o :: ops) = diffsOf ops := by simp [diffsOf, e]
      have e2 : idxsOf (o :: ops) = idxsOf ops := by simp [idxsOf, e]
      have e3 : maxsOf (o :: ops) = o.max_long_term_frame_idx_plus1 :: maxsOf ops := by simp [maxsOf, e]
      rw [e1, e2, e3, if_neg (by omega), if_neg (by omega), if_neg (by omega), if_neg (by omega), if_pos e]
      dsimp only
      congr 1
      simp only [Spec.operate, e]
      by_cases hm : o.max_long_term_frame_idx_plus1 = 0
      · rw [if_pos hm, hm]
        refine List.filter_congr fun x _ => ?_
        cases x.ltr <;> simp
      · rw [if_neg hm]
        refine List.filter_congr fun x _ => ?_
        cases x.ltr <;> simp
    · have e1 : diffsOf (o :: ops) = diffsOf ops := by simp [diffsOf, e]
      have e2 : idxsOf (o :: ops) = idxsOf ops := by simp [idxsOf, e]
      have e3 : maxsOf (o :: ops) = maxsOf ops := by simp [maxsOf, e]
      rw [e1, e2, e3, if_neg (by omega), if_neg (by omega), if_neg (by omega), if_neg (by omega), if_neg (by omega), if_pos e]
      simp only [Spec.operate, e]
    · have e1 : diffsOf (o :: ops) = diffsOf ops := by simp [diffsOf, e]
      have e2 : idxsOf (o :: ops) = o.long_term_frame_idx :: idxsOf ops := by simp [idxsOf, e]
      have e3 : maxsOf (o :: ops) = maxsOf ops := by simp [maxsOf, e]
      rw [e1, e2, e3, if_neg (by omega), if_neg (by omega), if_neg (by omega), if_neg (by omega), if_neg (by omega), if_neg (by omega), if_pos e]
      simp only [Spec.operate, e]

theorem mmcoParts_eq (fn : Nat) : ∀ (ops : List Mmco), (∀ o ∈ ops, o.Ok) →
    mmcoParts fn (ops.map (·.memory_management_control_operation) ++ [0]) (diffsOf ops) (idxsOf ops) (maxsOf ops) =
      .ok (ops.map fun o => (Spec.operationName fn o).toList)
  | [], _ => by simp [mmcoParts]
  | o :: ops, h => by
    have ih := mmcoParts_eq fn ops (fun x hx => h x (by simp [hx]))
    rw [List.map_cons, List.cons_append, mmcoParts.eq_def, List.map_cons]
    dsimp only
    rcases op_cases (h o (by simp)) with e | e | e | e | e | e
    · have e1 : diffsOf (o :: ops) = o.difference_of_pic_nums_minus1 :: diffsOf ops := by simp [diffsOf, e]
      have e2 : idxsOf (o :: ops) = idxsOf ops := by simp [idxsOf, e]
      have e3 : maxsOf (o :: ops) = maxsOf ops := by simp [maxsOf, e]
      rw [e1, e2, e3, if_neg (by omega), if_pos e]
      dsimp only
      rw [ih]
      simp only [Spec.operationName, e]
      rfl
    · have e1 : diffsOf (o :: ops) = diffsOf ops := by simp [diffsOf, e]
      have e2 : idxsOf (o :: ops) = idxsOf ops := by simp [idxsOf, e]
      have e3 : maxsOf (o :: ops) = maxsOf ops := by simp [maxsOf, e]
      rw [e1, e2, e3, if_neg (by omega), if_neg (by omega), if_pos e, ih]
      simp only [Spec.operationName, e]
      rfl
    · have e1 : diffsOf (o :: ops) = o.difference_of_pic_nums_minus1 :: diffsOf ops := by simp [diffsOf, e]
      have e2 : idxsOf (o :: ops) = o.long_term_frame_idx :: idxsOf ops := by simp [idxsOf, e]
      have e3 : maxsOf (o :: ops) = maxsOf ops := by simp [maxsOf, e]
      rw [e1, e2, e3, if_neg (by omega), if_neg (by omega), if_neg (by omega), if_pos e]
      dsimp only
      rw [ih]
      simp only [Spec.operationName, e]
      rfl
    · have e1 : diffsOf (o :: ops) = diffsOf ops := by simp [diffsOf, e]
      have e2 : idxsOf (o :: ops) = idxsOf ops := by simp [idxsOf, e]
      have e3 : maxsOf (o :: ops) = o.max_long_term_frame_idx_plus1 :: maxsOf ops := by simp [maxsOf, e]
      rw [e1, e2, e3, if_neg (by omega), if_neg (by omega), if_neg (by omega), if_neg (by omega), if_pos e]
      dsimp only
      rw [ih]
      simp only [Spec.operationName, e]
      rfl
    · have e1 : diffsOf (o :: ops) = diffsOf ops := by simp [diffsOf, e]
      have e2 : idxsOf (o :: ops) = idxsOf ops := by simp [idxsOf, e]
      have e3 : maxsOf (o :: ops) = maxsOf ops := by simp [maxsOf, e]
      rw [e1, e2, e3, if_neg (by omega), if_neg (by omega), if_neg (by omega), if_neg (by omega), if_neg (by omega), if_pos e, ih]
      simp only [Spec.operationName, e]
      rfl
    · have e1 : diffsOf (o :: ops) = diffsOf ops := by simp [diffsOf, e]
      have e2 : idxsOf (o :: ops) = o.long_term_frame_idx :: idxsOf ops := by simp [idxsOf, e]
      have e3 : maxsOf (o :: ops) = maxsOf ops := by simp [maxsOf, e]
      rw [e1, e2, e3, if_neg (by omega), if_neg (by omega), if_neg (by omega), if_neg (by omega), if_neg (by omega), if_neg (by omega), if_pos e]
      dsimp only
      rw [ih]
      simp only [Spec.operationName, e]
      rfl

theorem joinSemi_eq : ∀ l : List (List Char), joinSemi l = List.intercalate [';'] l
  | [] => rfl
  | [p] => by simp [joinSemi, List.intercalate, List.intersperse]
  | p :: q :: r => by
    rw [joinSemi, joinSemi_eq (q :: r)]
    simp [List.intercalate, List.intersperse]

/-! ### Modifications -/

theorem moveTo_eq (p : Entry → Bool) : ∀ (l : List Entry) (i : Nat), moveTo p l i = Spec.placed p l i := by
  intro l i
  unfold moveTo Spec.placed
  cases h : l.findIdx? p with
  | none =>
    have : l.find? p = none := by
      rw [List.find?_eq_none]
      intro x hx
      have := List.findIdx?_eq_none_iff.mp h x hx
      simp [this]
    rw [this]
  | some k =>
    have hk := List.findIdx?_eq_some_iff_getElem.mp h
    obtain ⟨hlt, hp, hmin⟩ := hk
    have hf : l.find? p = some l[k] := by
      rw [List.find?_eq_some_iff_getElem]
      exact ⟨hp, k, hlt, rfl, fun j hj => by simpa using hmin j hj⟩
    have he : l.eraseP p = l.eraseIdx k := by
      rw [List.eraseP_eq_eraseIdx, h]
    rw [hf, he]
    simp [hlt]

theorem rplmLoop_eq (N : Nat) (a : List Nat) : ∀ (ops : List (Nat × Nat)), (∀ o ∈ ops, o.1 ≤ 2) → ∀ (b c : List Nat) (pred i : Nat) (l : List Entry),
    rplmLoop N (ops.map (·.1) ++ 3 :: a) ((ops.filter (fun o => decide (o.1 ≤ 1))).map (·.2) ++ b)
      ((ops.filter (fun o => decide (o.1 = 2))).map (·.2) ++ c) pred i l = .ok (Spec.modified N pred i l ops)
  | [], _, b, c, pred, i, l => by simp [rplmLoop, Spec.modified]
  | (idc, v) :: ops, h, b, c, pred, i, l => by
    have ih := rplmLoop_eq N a ops (fun x hx => h x (by simp [hx]))
    have h2 := h (idc, v) (by simp)
    dsimp only at h2
    rw [List.map_cons, List.cons_append, rplmLoop.eq_def, Spec.modified]
    dsimp only
    rw [if_neg (by omega)]
    by_cases c2 : idc = 2
    · rw [if_neg (by omega), if_pos c2, if_pos c2]
      have e1 : ((idc, v) :: ops).filter (fun o => decide (o.1 ≤ 1)) = ops.filter (fun o => decide (o.1 ≤ 1)) := by simp [c2]
      have e2 : ((idc, v) :: ops).filter (fun o => decide (o.1 = 2)) = (idc, v) :: ops.filter (fun o => decide (o.1 = 2)) := by simp [c2]
      rw [e1, e2, List.map_cons, List.cons_append]
      dsimp only
      rw [moveTo_eq]
      exact ih b c _ _ _
    · rw [if_pos (by omega), if_neg c2]
      have e1 : ((idc, v) :: ops).filter (fun o => decide (o.1 ≤ 1)) = (idc, v) :: ops.filter (fun o => decide (o.1 ≤ 1)) :=
        List.filter_cons_of_pos (by simp; omega)
      have e2 : ((idc, v) :: ops).filter (fun o => decide (o.1 = 2)) = ops.filter (fun o => decide (o.1 = 2)) := by simp [c2]
      rw [e1, e2, List.map_cons, List.cons_append]
      dsimp only
      rw [moveTo_eq]
      exact ih b c _ _ _

/-! ### Order -/

section
variable {le : Entry → Entry → Bool}

theorem insert_perm (x : Entry) : ∀ l, (insertBy le x l).Perm (x :: l)
  | [] => .refl _
  | y :: t => by
    rw [insertBy]
    split
    · exact .refl _
    · exact ((insert_perm x t).cons y).trans (.swap x y t)

theorem sort_perm : ∀ l, (sortBy le l).Perm l
  | [] => .refl _
  | x :: t => by
    show (insertBy le x (sortBy le t)).Perm _
    exact (insert_perm x _).trans ((sort_perm t).cons x)

theorem insert_sorted (total : ∀ a b, le a b = true ∨ le b a = true) (trans : ∀ a b c, le a b = true → le b c = true → le a c = true) (x : Entry) :
    ∀ l : List Entry, l.Pairwise (fun a b => le a b = true) → (insertBy le x l).Pairwise (fun a b => le a b = true)
  | [], _ => by simp [insertBy]
  | y :: t, h => by
    rw [insertBy]
    have ⟨h1, h2⟩ := List.pairwise_cons.mp h
    split
    · rename_i hxy
      refine List.pairwise_cons.mpr ⟨fun z hz => ?_, h⟩
      rcases List.mem_cons.mp hz with rfl | hz
      · exact hxy
      · exact trans _ _ _ hxy (h1 z hz)
    · rename_i hxy
      refine List.pairwise_cons.mpr ⟨fun z hz => ?_, insert_sorted total trans x t h2⟩
      rcases List.mem_cons.mp ((insert_perm x t).mem_iff.mp hz) with rfl | hz
      · exact (total z y).resolve_left hxy
      · exact h1 z hz

theorem sort_sorted (total : ∀ a b, le a b = true ∨ le b a = true) (trans : ∀ a b c, le a b = true → le b c = true → le a c = true) :
    ∀ l : List Entry, (sortBy le l).Pairwise (fun a b => le a b = true)
  | [] => .nil
  | x :: t => insert_sorted total trans x _ (sort_sorted total trans t)

theorem insert_filter {q : Entry → Bool} (alike : ∀ a b, q a = true → q b = true → le a b = true) (x : Entry) :
    ∀ l : List Entry, (insertBy le x l).filter q = (x :: l).filter q
  | [] => rfl
  | y :: t => by
    rw [insertBy]
    split
    · rfl
    · rename_i h
      rw [List.filter_cons, insert_filter alike x t]
      by_cases hx : q x = true
      · have hy : ¬ q y = true := fun hy => h (alike _ _ hx hy)
        simp [hx, hy]
      · simp [hx, List.filter_cons]

theorem sort_filter {q : Entry → Bool} (alike : ∀ a b, q a = true → q b = true → le a b = true) :
    ∀ l : List Entry, (sortBy le l).filter q = l.filter q
  | [] => rfl
  | x :: t => by
    show (insertBy le x (sortBy le t)).filter q = _
    rw [insert_filter alike, List.filter_cons, List.filter_cons, sort_filter alike t]

end

theorem built (d : List Entry) : Spec.Ordered d (buildRefPicList0 d) := by
  have hs : ∀ e ∈ sortBy (fun a b => decide (b.frame_num ≤ a.frame_num)) (d.filter fun e => e.ltr = none), e.ltr = none := by
    intro e he
    have := (sort_perm _).mem_iff.mp he
    simpa using (List.mem_filter.mp this).2
  have hl : ∀ e ∈ sortBy (fun a b => decide (a.ltr.getD 0 ≤ b.ltr.getD 0)) (d.filter fun e => e.ltr ≠ none), e.ltr ≠ none := by
    intro e he
    have := (sort_perm _).mem_iff.mp he
    simpa using (List.mem_filter.mp this).2
  have e1 : Spec.shorts (buildRefPicList0 d) = sortBy (fun a b => decide (b.frame_num ≤ a.frame_num)) (d.filter fun e => e.ltr = none) := by
    unfold Spec.shorts buildRefPicList0
    rw [List.filter_append]
    have a := List.filter_eq_self (p := fun e : Entry => decide (e.ltr = none)).mpr (fun e he => by simpa using hs e he)
    have b := List.filter_eq_nil_iff (p := fun e : Entry => decide (e.ltr = none)).mpr (fun e he => by simpa using hl e he)
    rw [a, b, List.append_nil]
  have e2 : Spec.longs (buildRefPicList0 d) = sortBy (fun a b => decide (a.ltr.getD 0 ≤ b.ltr.getD 0)) (d.filter fun e => e.ltr ≠ none) := by
    unfold Spec.longs buildRefPicList0
    rw [List.filter_append]
    have a := List.filter_eq_nil_iff (p := fun e : Entry => decide (e.ltr ≠ none)).mpr (fun e he => by simpa using hs e he)
    have b := List.filter_eq_self (p := fun e : Entry => decide (e.ltr ≠ none)).mpr (fun e he => by simpa using hl e he)
    rw [a, b, List.nil_append]
  refine ⟨?_, ?_, ?_, ?_, ?_⟩
  · rw [e1, e2]; rfl
  · rw [e1]
    refine (sort_sorted ?_ ?_ _).imp fun h => by simpa using h
    · intro a b; simp; omega
    · intro a b c; simp; omega
  · rw [e2]
    refine (sort_sorted ?_ ?_ _).imp fun h => by simpa using h
    · intro a b; simp; omega
    · intro a b c; simp; omega
  · intro n
    rw [e1]
    refine sort_filter (fun a b ha hb => ?_) _
    simp at ha hb ⊢
    omega
  · intro n
    rw [e2]
    refine sort_filter (fun a b ha hb => ?_) _
    simp at ha hb ⊢
    rw [ha, hb]
    exact Nat.le_refl _

/-! ### The sliding window -/

theorem popShort_none : ∀ {d : List Entry}, popShort d = none ↔ Spec.shorts d = []
  | [] => by simp [popShort, Spec.shorts]
  | e :: t => by
    have ih := popShort_none (d := t)
    unfold Spec.shorts at ih ⊢
    rw [popShort]
    by_cases h : e.ltr = none
    · simp [h]
    · rw [if_neg h, Option.map_eq_none_iff, ih, List.filter_cons_of_neg (by simpa using h)]

theorem popShort_some : ∀ {d d' : List Entry}, popShort d = some d' → (Spec.shorts d).length = (Spec.shorts d').length + 1 ∧
    ∀ k, Spec.dropShorts (k + 1) d = Spec.dropShorts k d'
  | [], _, h => by simp [popShort] at h
  | e :: t, d', h => by
    rw [popShort] at h
    by_cases hn : e.ltr = none
    · rw [if_pos hn] at h
      cases h
      exact ⟨by simp [Spec.shorts, hn], fun k => by rw [Spec.dropShorts, if_pos hn]⟩
    · rw [if_neg hn, Option.map_eq_some_iff] at h
      obtain ⟨u, hu, rfl⟩ := h
      obtain ⟨h1, h2⟩ := popShort_some hu
      refine ⟨?_, fun k => ?_⟩
      · unfold Spec.shorts at h1 ⊢
        rw [List.filter_cons_of_neg (by simpa using hn), List.filter_cons_of_neg (by simpa using hn), h1]
      · rw [Spec.dropShorts, if_neg hn, h2 k]
        cases k with
        | zero => simp [Spec.dropShorts]
        | succ k => rw [Spec.dropShorts, if_neg hn]

theorem slide_eq : ∀ (k : Nat) (d : List Entry),
    slide k d = if k ≤ (Spec.shorts d).length then .ok (Spec.dropShorts k d) else .error .loops
  | 0, d => by
    rw [slide, if_pos (Nat.zero_le _)]
    cases d <;> rfl
  | k + 1, d => by
    rw [slide]
    cases h : popShort d with
    | none =>
      rw [popShort_none] at h
      rw [h]
      rfl
    | some d' =>
      obtain ⟨h1, h2⟩ := popShort_some h
      dsimp only
      rw [slide_eq k d', h1, h2 k]
      by_cases hk : k ≤ (Spec.shorts d').length
      · rw [if_pos hk, if_pos (by omega)]
      · rw [if_neg hk, if_neg (by omega)]

theorem shorts_longs : ∀ d : List Entry, (Spec.shorts d).length + (Spec.longs d).length = d.length
  | [] => rfl
  | e :: t => by
    have := shorts_longs t
    unfold Spec.shorts Spec.longs at this ⊢
    by_cases h : e.ltr = none <;> simp [h] <;> simp at this <;> omega

/-! ### A picture -/

theorem refs_eq (N : Nat) {f : Frame} {x : Spec.Picture} (h : Reads f x) (d : List Entry) :
    ∃ l, refsUsed N f d = .ok l ∧ Spec.Refers N x d l := by
  unfold refsUsed
  rw [h.type]
  by_cases hc : (x.slice_type = 0 ∨ x.slice_type = 1) ∧ d ≠ []
  · rw [if_pos hc]
    have ha : applyRplm (buildRefPicList0 d) f N = .ok (Spec.modified N x.frame_num 0 (buildRefPicList0 d) (x.changes.getD [])) := by
      unfold applyRplm
      have hch := h.changes
      cases hx : x.changes with
      | none =>
        rw [hx] at hch
        dsimp only at hch
        rw [if_pos hch]
        rfl
      | some ops =>
        rw [hx] at hch
        dsimp only at hch
        obtain ⟨h0, h2, a, b, c, ha, hb, hc⟩ := hch
        rw [if_neg h0, ha, hb, hc, h.frame_num, rplmLoop_eq N a ops h2]
        rfl
    rw [ha, h.active]
    exact ⟨_, rfl, .some hc.1 hc.2 (built d)⟩
  · rw [if_neg hc]
    exact ⟨_, rfl, .none hc⟩

theorem mmco_eq {f : Frame} {x : Spec.Picture} (h : Reads f x) : mmcoStr f = .ok (Spec.markingName x) := by
  unfold mmcoStr Spec.markingName
  rw [h.idr]
  cases hi : x.idr with
  | true =>
    rw [if_pos rfl, if_pos rfl]
    by_cases hl : x.long_term = true
    · rw [if_pos (h.long_term.mpr hl), if_pos hl]
    · rw [if_neg (fun h' => hl (h.long_term.mp h')), if_neg hl]
  | false =>
    simp only [Bool.false_eq_true, if_false]
    have ho := h.operations
    cases hx : x.operations with
    | none =>
      rw [hx] at ho
      dsimp only at ho
      rw [if_pos ho]
      unfold Frame.isRef
      rw [h.ref]
      by_cases hr : 0 < x.nal_ref_idc
      · simp [hr]
      · simp [hr]
    | some ops =>
      rw [hx] at ho
      dsimp only at ho
      obtain ⟨h1, h2, h3, h4, h5⟩ := ho
      rw [if_neg (by rw [h2]; simp), h2, h3, h4, h5, h.frame_num]
      have e := mmcoParts_eq x.frame_num ops h1
      unfold diffsOf idxsOf maxsOf at e
      rw [e]
      show Except.ok (joinSemi _) = _
      rw [joinSemi_eq]

theorem mark_eq (s : SpsData) {f : Frame} {x : Spec.Picture} (h : Reads f x) (d : List Entry) (hd : x.idr = true → d = []) :
    (Spec.Room s x d ∧ mark s.max_num_ref_frames f d = .ok (Spec.heldAfter s.max_num_ref_frames x d)) ∨
      (¬ Spec.Room s x d ∧ mark s.max_num_ref_frames f d = .error .loops) := by
  unfold mark Spec.heldAfter Frame.isRef
  rw [h.idr, h.ref, h.frame_num]
  cases hi : x.idr with
  | true =>
    refine .inl ⟨fun hs => absurd hs.1 (by rw [hi]; decide), ?_⟩
    rw [if_pos rfl, if_pos rfl, hd hi, List.nil_append]
    by_cases hl : x.long_term = true
    · rw [if_pos (h.long_term.mpr hl), if_pos hl]
    · rw [if_neg (fun h' => hl (h.long_term.mp h')), if_neg hl]
      by_cases hr : 0 < x.nal_ref_idc
      · simp [hr]
      · simp [hr]
  | false =>
    simp only [Bool.false_eq_true, if_false]
    have ho := h.operations
    cases hx : x.operations with
    | some ops =>
      refine .inl ⟨fun hs => absurd hs.2.1 (by rw [hx]; simp), ?_⟩
      rw [hx] at ho
      dsimp only at ho
      obtain ⟨h1, h2, h3, h4, h5⟩ := ho
      rw [if_pos (by rw [h2]; simp), h2, h3, h4, h5]
      have e := markOps_eq x.frame_num ops h1 d
      unfold diffsOf idxsOf maxsOf at e
      rw [e]
    | none =>
      rw [hx] at ho
      dsimp only at ho
      rw [if_neg (by rw [ho]; simp)]
      dsimp only
      by_cases hr : 0 < x.nal_ref_idc
      · rw [if_pos (by simpa using hr), if_pos hr, slide_eq]
        have e1 : (Spec.shorts (d ++ [(⟨x.frame_num, none⟩ : Entry)])).length = (Spec.shorts d).length + 1 := by
          unfold Spec.shorts
          rw [List.filter_append, List.length_append]
          rfl
        have e2 := shorts_longs d
        rw [e1, List.length_append, List.length_singleton]
        by_cases hL : (Spec.longs d).length ≤ s.max_num_ref_frames
        · exact .inl ⟨fun _ => hL, by rw [if_pos (by omega)]⟩
        · exact .inr ⟨fun hR => hL (hR ⟨hi, hx, hr⟩), by rw [if_neg (by omega)]⟩
      · refine .inl ⟨fun hs => absurd hs.2.2 hr, ?_⟩
        rw [if_neg (by simpa using hr), if_neg hr]

theorem type_eq {f : Frame} {x : Spec.Picture} (h : Reads f x) : frameType f = (Spec.typeName x).toList := by
  unfold frameType Spec.typeName
  rw [h.idr, h.type]
  cases x.idr with
  | true => rfl
  | false =>
    simp only [Bool.false_eq_true, if_false]
    generalize x.slice_type = t
    match t with
    | 0 | 1 | 2 | 3 | 4 => rfl
    | t + 5 => rfl

/-! ### The table -/

theorem heldAfter_idr {M : Nat} {x : Spec.Picture} (h : x.idr = true) (d e : List Entry) : Spec.heldAfter M x d = Spec.heldAfter M x e := by
  unfold Spec.heldAfter
  rw [if_pos h, if_pos h]

theorem endless_cons {M : Nat} {d : List Entry} {x : Spec.Picture} {xs : List Spec.Picture} :
    Spec.Endless M d (x :: xs) ↔ (x.slides ∧ M < (Spec.longs d).length) ∨ Spec.Endless M (Spec.heldAfter M x d) xs := by
  constructor
  · rintro ⟨pre, y, post, e, h1, h2⟩
    cases pre with
    | nil =>
      cases e
      exact .inl ⟨h1, h2⟩
    | cons z pre =>
      cases e
      exact .inr ⟨pre, y, post, rfl, h1, h2⟩
  · rintro (⟨h1, h2⟩ | ⟨pre, y, post, e, h1, h2⟩)
    · exact ⟨[], x, xs, rfl, h1, h2⟩
    · exact ⟨x :: pre, y, post, by rw [e]; rfl, h1, h2⟩

theorem simulate_eq (s : SpsData) : ∀ {fs : List Frame} {xs : List Spec.Picture}, List.Forall₂ Reads fs xs → ∀ (i g j : Nat) (d : List Entry),
    (∃ rows, simulate (spsOf s) i g j d fs = .ok rows ∧ Spec.Table s i g j d xs rows) ∨
      (simulate (spsOf s) i g j d fs = .error .loops ∧ Spec.Endless s.max_num_ref_frames d xs) := by
  intro fs xs H
  induction H with
  | nil => exact fun i g j d => .inl ⟨[], rfl, .nil i g j d⟩
  | @cons f x fs xs hr _ ih =>
    intro i g j d
    obtain ⟨l, hl, hl'⟩ := refs_eq (2 ^ (s.log2_max_frame_num_minus4 + 4)) hr (if x.idr then [] else d)
    have hm := mmco_eq hr
    have hg : (if x.idr = true then g + (if i > 0 then 1 else 0) else g) = if x.idr = true then (if i = 0 then g else g + 1) else g := by
      by_cases h0 : i = 0
      · simp [h0]
      · simp [h0, Nat.pos_of_ne_zero h0]
    rw [simulate, endless_cons]
    rw [hr.idr, hg]
    have hN : (2 ^ ((spsOf s).log2_max_frame_num_minus4 + 4)) = 2 ^ (s.log2_max_frame_num_minus4 + 4) := rfl
    rw [hN, hl, hm]
    rcases mark_eq s hr (if x.idr then [] else d) (fun hi => by rw [if_pos hi]) with ⟨hroom, he⟩ | ⟨hroom, he⟩
    · have he' : mark (spsOf s).max_num_ref_frames f (if x.idr = true then [] else d) = _ := he
      rw [he']
      have ih' := ih (i + 1) (if x.idr = true then (if i = 0 then g else g + 1) else g) ((if x.idr = true then 0 else j) + 1)
        (Spec.heldAfter s.max_num_ref_frames x (if x.idr = true then [] else d))
      rcases ih' with ⟨rows, e, ht⟩ | ⟨e, e2⟩
      · left
        refine ⟨_, by
          show (do
            let rows ← simulate (spsOf s) (i + 1) _ _ _ fs
            pure _ : Except Err (List Row)) = _
          rw [e]; rfl, ?_⟩
        have hrow : Spec.RowOf s i (if x.idr = true then (if i = 0 then g else g + 1) else g) (if x.idr = true then 0 else j) x
            (if x.idr = true then [] else d)
            { abs_frame := i, gop := (if x.idr = true then (if i = 0 then g else g + 1) else g), gop_frame := (if x.idr = true then 0 else j),
              type := frameType f, frame_num := f.frame_num, nal_ref_idc := f.nal_ref_idc, ref := f.isRef, refs_used := l,
              dpb_before_decode := (if x.idr = true then [] else d), mmco := Spec.markingName x,
              dpb_after_mmco := Spec.heldAfter s.max_num_ref_frames x (if x.idr = true then [] else d) } :=
          ⟨rfl, rfl, rfl, type_eq hr, hr.frame_num, hr.ref, by unfold Frame.isRef; rw [hr.ref], rfl, hl', rfl, rfl⟩
        cases hi : x.idr with
        | true =>
          rw [hi] at hrow ht
          exact .idr hi hrow ht
        | false =>
          rw [hi] at hrow ht hroom
          exact .other hi hroom hrow ht
      · right
        refine ⟨by
          show (do
            let rows ← simulate (spsOf s) (i + 1) _ _ _ fs
            pure _ : Except Err (List Row)) = _
          rw [e]; rfl, .inr ?_⟩
        cases hi : x.idr with
        | true =>
          rw [hi, if_pos rfl] at e2
          rw [heldAfter_idr hi d []]
          exact e2
        | false =>
          rw [hi] at e2
          exact e2
    · right
      have he' : mark (spsOf s).max_num_ref_frames f (if x.idr = true then [] else d) = _ := he
      rw [he']
      refine ⟨rfl, .inl ?_⟩
      unfold Spec.Room at hroom
      rw [Classical.not_imp] at hroom
      obtain ⟨h1, h2⟩ := hroom
      refine ⟨h1, ?_⟩
      rw [if_neg (by rw [h1.1]; decide)] at h2
      exact Nat.not_le.mp h2

theorem table_ends {s : SpsData} {i g j : Nat} {d : List Entry} {xs : List Spec.Picture} {rows : List Row}
    (h : Spec.Table s i g j d xs rows) : ¬ Spec.Endless s.max_num_ref_frames d xs := by
  induction h with
  | nil i g j d =>
    rintro ⟨pre, x, post, e, _⟩
    cases pre <;> cases e
  | @idr i g j d x xs r rs h1 h2 h3 ih =>
    rw [endless_cons, heldAfter_idr h1 d []]
    rintro (⟨h4, _⟩ | h4)
    · have := h4.1
      rw [h1] at this
      cases this
    · exact ih h4
  | @other i g j d x xs r rs h1 h2 h3 h4 ih =>
    rw [endless_cons]
    rintro (⟨h5, h6⟩ | h5)
    · exact absurd (h2 h5) (Nat.not_le.mpr h6)
    · exact ih h5

end H264.Dpb
