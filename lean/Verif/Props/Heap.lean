import Verif.Spec.Heap
import Verif.Props.Reach
import Verif.WorkUnits
import Verif.Props.Loss

/-
C76: shared pointers are never dangling and never leak.  C77: parameter sets behave as values.
-/

namespace H264.Props
open H264 H264.Spec H264.Heap

/-! ### Reference counts -/

/-- Every object that is still there is pointed to. -/
def Pos (m : Mem) : Prop := ∀ a, obj m a ≠ none → 0 < useCount m a

theorem live_of_pos {m : Mem} {a : Nat} (h : 0 < useCount m a) : ∃ o n, m[a]? = some (some (o, n)) ∧ useCount m a = n ∧ obj m a = some o := by
  unfold useCount at h
  unfold useCount obj
  cases hm : m[a]? with
  | none => rw [hm] at h; simp at h
  | some c =>
    cases c with
    | none => rw [hm] at h; simp at h
    | some c => exact ⟨c.1, c.2, rfl, rfl, rfl⟩

theorem lookup_set {m : Mem} {a : Nat} {x : Option (Obj × Nat)} {y : Option (Obj × Nat)} (h : m[a]? = some y) (b : Nat) :
    (m.set a x)[b]? = if b = a then some x else m[b]? := by
  rw [List.getElem?_set]
  have : a < m.length := by
    refine Nat.lt_of_not_le fun hc => ?_
    rw [List.getElem?_eq_none hc] at h
    cases h
  by_cases hb : a = b
  · subst hb; simp [this]
  · rw [if_neg hb, if_neg (fun h => hb h.symm)]

theorem incr_spec {m : Mem} (hp : Pos m) {a : Nat} (h : 0 < useCount m a) : ∃ m', incr m a = .ok m' ∧ Pos m' ∧
    (∀ b, useCount m' b = useCount m b + if b = a then 1 else 0) ∧ ∀ b, obj m' b = obj m b := by
  obtain ⟨o, n, h1, h2, h3⟩ := live_of_pos h
  have e : ∀ b, (m.set a (some (o, n + 1)))[b]? = if b = a then some (some (o, n + 1)) else m[b]? := lookup_set h1
  refine ⟨m.set a (some (o, n + 1)), by unfold incr; rw [h1], ?_, ?_, ?_⟩
  · intro b hb
    unfold obj at hb
    unfold useCount
    rw [e b] at hb ⊢
    split
    · rename_i c hc
      split at hc
      · cases hc; simp
      · have := hp b (by unfold obj; rw [hc]; simp)
        unfold useCount at this
        rw [hc] at this
        exact this
    · rename_i hc
      exfalso
      revert hb
      split
      · rename_i c hc'
        exact absurd hc' (hc c)
      · simp
  · intro b
    unfold useCount
    rw [e b]
    by_cases hb : b = a
    · subst hb; simp [h1]
    · simp [hb]
  · intro b
    unfold obj
    rw [e b]
    by_cases hb : b = a
    · subst hb; simp [h1]
    · simp [hb]

theorem decr_spec {m : Mem} (hp : Pos m) {a : Nat} (h : 0 < useCount m a) : ∃ m', decr m a = .ok m' ∧ Pos m' ∧
    (∀ b, useCount m' b + (if b = a then 1 else 0) = useCount m b) ∧ ∀ b, 0 < useCount m' b → obj m' b = obj m b := by
  obtain ⟨o, n, h1, h2, h3⟩ := live_of_pos h
  have hn : 0 < n := by omega
  generalize hx : (if n ≤ 1 then none else some (o, n - 1) : Option (Obj × Nat)) = x
  have e : ∀ b, (m.set a x)[b]? = if b = a then some x else m[b]? := lookup_set h1
  have hu : ∀ b, useCount (m.set a x) b + (if b = a then 1 else 0) = useCount m b := by
    intro b
    unfold useCount
    rw [e b]
    by_cases hb : b = a
    · subst hb
      simp only [if_true, h1]
      split at hx
      · subst hx; dsimp only; omega
      · subst hx; dsimp only; omega
    · simp [hb]
  have ho : ∀ b, obj (m.set a x) b ≠ none → obj (m.set a x) b = obj m b ∧ 0 < useCount (m.set a x) b := by
    intro b hb
    unfold obj useCount at *
    rw [e b] at hb ⊢
    by_cases hba : b = a
    · subst hba
      simp only [if_true, h1] at hb ⊢
      split at hx
      · subst hx; exact absurd rfl hb
      · subst hx; exact ⟨rfl, by dsimp only; omega⟩
    · simp only [hba, if_false] at hb ⊢
      exact ⟨trivial, hp b hb⟩
  refine ⟨m.set a x, by unfold decr; rw [h1, ← hx], fun b hb => (ho b hb).2, hu, fun b hb => (ho b ?_).1⟩
  obtain ⟨o', _, _, _, h5⟩ := live_of_pos hb
  rw [h5]
  simp

theorem incrAll_spec : ∀ (l : List Nat) {m : Mem}, Pos m → (∀ a ∈ l, 0 < useCount m a) → ∃ m', incrAll l m = .ok m' ∧ Pos m' ∧
    (∀ b, useCount m' b = useCount m b + l.count b) ∧ ∀ b, obj m' b = obj m b
  | [], m, hp, _ => ⟨m, rfl, hp, by simp, fun _ => rfl⟩
  | a :: l, m, hp, h => by
    obtain ⟨m1, h1, h2, h3, h4⟩ := incr_spec hp (h a (by simp))
    obtain ⟨m2, h5, h6, h7, h8⟩ := incrAll_spec l h2 (fun b hb => by rw [h3 b]; have := h b (by simp [hb]); omega)
    refine ⟨m2, by unfold incrAll; rw [h1]; exact h5, h6, fun b => ?_, fun b => by rw [h8, h4]⟩
    rw [h7, h3, List.count_cons]
    by_cases hb : b = a
    · subst hb; simp; omega
    · have : ¬ a = b := fun h => hb h.symm
      simp [hb, this]

theorem decrAll_spec : ∀ (l : List Nat) {m : Mem}, Pos m → (∀ a, l.count a ≤ useCount m a) → ∃ m', decrAll l m = .ok m' ∧ Pos m' ∧
    (∀ b, useCount m' b + l.count b = useCount m b) ∧ ∀ b, 0 < useCount m' b → obj m' b = obj m b
  | [], m, hp, _ => ⟨m, rfl, hp, by simp, fun _ _ => rfl⟩
  | a :: l, m, hp, h => by
    have hc : ∀ b, (a :: l).count b = l.count b + if b = a then 1 else 0 := by
      intro b
      rw [List.count_cons]
      by_cases hb : b = a
      · subst hb; simp
      · have : ¬ a = b := fun h => hb h.symm
        simp [hb, this]
    obtain ⟨m1, h1, h2, h3, h4⟩ := decr_spec hp (a := a) (by have := h a; rw [hc] at this; simp at this; omega)
    obtain ⟨m2, h5, h6, h7, h8⟩ := decrAll_spec l h2 (fun b => by have := h b; rw [hc] at this; have := h3 b; omega)
    refine ⟨m2, by unfold decrAll; rw [h1]; exact h5, h6, fun b => ?_, fun b hb => ?_⟩
    · rw [hc, ← h3 b, ← h7 b]; omega
    · rw [h8 b hb, h4 b (by have := h7 b; omega)]

/-! ### Maps of pointers -/

theorem get_mem {mp : PMap} {k a : Nat} (h : mp.get k = some a) : a ∈ mp.ptrs := by
  unfold PMap.get at h
  cases hf : mp.find? fun e => e.1 == k with
  | none => rw [hf] at h; cases h
  | some e =>
    rw [hf] at h
    cases h
    exact List.mem_map_of_mem (List.mem_of_find?_eq_some hf)

theorem count_split (mp : PMap) (k b : Nat) : mp.ptrs.count b = (mp.old k).ptrs.count b + (mp.others k).ptrs.count b := by
  unfold PMap.old PMap.others PMap.ptrs
  induction mp with
  | nil => rfl
  | cons e mp ih =>
    by_cases he : (e.1 == k) = true
    · simp only [List.map_cons, List.count_cons, List.filter_cons, he, if_true, Bool.not_true, Bool.false_eq_true, if_false]
      rw [ih]
      omega
    · simp only [List.map_cons, List.count_cons, List.filter_cons, he, Bool.not_false, if_true, Bool.false_eq_true, if_false]
      rw [ih]
      omega

theorem get_put (mp : PMap) (k a i : Nat) : PMap.get ((k, a) :: mp.others k) i = if i = k then some a else mp.get i := by
  unfold PMap.get PMap.others
  by_cases hi : i = k
  · subst hi; simp
  · have hk : ¬ (k == i) = true := by simpa using fun h => hi h.symm
    rw [List.find?_cons_of_neg (by simpa using hk), if_neg hi, List.find?_filter]
    congr 1
    congr 1
    funext e
    by_cases he : e.1 = k
    · have : ¬ k = i := fun h => hi h.symm
      simp [he, this]
    · have : (e.1 == k) = false := by simpa using he
      rw [this]
      simp only [Bool.not_false, true_and]
      by_cases h : e.1 = i <;> simp [h]

theorem assign_spec {m : Mem} (hp : Pos m) {mp : PMap} {k a : Nat} (ha : 0 < useCount m a) (hm : ∀ b, mp.ptrs.count b ≤ useCount m b) :
    ∃ m', assign m mp k a = .ok (m', (k, a) :: mp.others k) ∧ Pos m' ∧
      (∀ b, useCount m' b + (mp.old k).ptrs.count b = useCount m b + if b = a then 1 else 0) ∧
      ∀ b, 0 < useCount m' b → obj m' b = obj m b := by
  obtain ⟨m1, h1, h2, h3, h4⟩ := incr_spec hp ha
  obtain ⟨m2, h5, h6, h7, h8⟩ := decrAll_spec (mp.old k).ptrs h2 (fun b => by
    have := count_split mp k b
    have := hm b
    rw [h3 b]
    omega)
  refine ⟨m2, ?_, h6, fun b => by rw [h7, h3], fun b hb => by rw [h8 b hb, h4]⟩
  unfold assign
  rw [h1]
  show (do let m ← decrAll (mp.old k).ptrs m1; pure (m, (k, a) :: mp.others k)) = _
  rw [h5]
  rfl

theorem alloc_lookup (m : Mem) (o : Obj) (b : Nat) :
    (m ++ [some (o, 1)])[b]? = if b = m.length then some (some (o, 1)) else m[b]? := by
  by_cases hb : b = m.length
  · subst hb; simp
  · rw [if_neg hb]
    by_cases hl : b < m.length
    · rw [List.getElem?_append_left hl]
    · rw [List.getElem?_eq_none (by simp; omega), List.getElem?_eq_none (by omega)]

theorem useCount_lt {m : Mem} {b : Nat} (h : 0 < useCount m b) : b < m.length := by
  obtain ⟨o, n, h1, _⟩ := live_of_pos h
  refine Nat.lt_of_not_le fun hc => ?_
  rw [List.getElem?_eq_none hc] at h1
  cases h1

/-- The pointer that is kept, in the result and in the map, and what happened to the rest: `R` is all other pointers. -/
theorem keep_spec {α : Type} (f : Obj → Option α) {m : Mem} (hp : Pos m) {mp : PMap} {R : List Nat}
    (hm : ∀ b, useCount m b = mp.ptrs.count b + R.count b) (x : Option (Nat × Obj)) :
    ∃ r mp' m', keep m mp x = .ok (r, mp', m') ∧ Pos m' ∧
      (∀ b, useCount m' b = mp'.ptrs.count b + r.toList.count b + R.count b) ∧
      (∀ b, 0 < useCount m b → 0 < useCount m' b → obj m' b = obj m b) ∧
      (x = none → r = none ∧ derefMap f m' mp' = derefMap f m mp) ∧
      ∀ k o y, x = some (k, o) → f o = some y → ((r.bind fun a => (obj m' a).bind f) = some y ∧
        derefMap f m' mp' = upd (derefMap f m mp) k y ∧ mp'.get k = r) := by
  cases x with
  | none =>
    refine ⟨none, mp, m, rfl, hp, fun b => by simpa using hm b, fun _ _ _ => rfl, fun _ => ⟨rfl, rfl⟩, fun k o y h => by cases h⟩
  | some x =>
    obtain ⟨k, o⟩ := x
    have hu : ∀ b, useCount (m ++ [some (o, 1)]) b = useCount m b + if b = m.length then 1 else 0 := by
      intro b
      unfold useCount
      rw [alloc_lookup]
      by_cases hb : b = m.length
      · subst hb; simp
      · simp [hb]
    have ho : ∀ b, obj (m ++ [some (o, 1)]) b = if b = m.length then some o else obj m b := by
      intro b
      unfold obj
      rw [alloc_lookup]
      by_cases hb : b = m.length
      · subst hb; simp
      · simp [hb]
    have h0 : useCount m m.length = 0 := by
      have := @useCount_lt m m.length
      omega
    have hp1 : Pos (m ++ [some (o, 1)]) := by
      intro b hb
      rw [ho] at hb
      rw [hu]
      by_cases hbl : b = m.length
      · simp [hbl]
      · simp only [hbl, if_false] at hb ⊢
        exact hp b hb
    obtain ⟨m', h1, h2, h3, h4⟩ := assign_spec (k := k) (a := m.length) hp1 (mp := mp) (by rw [hu]; simp) (fun b => by
      rw [hu, hm b]; omega)
    have huc : ∀ b, useCount m' b = (PMap.ptrs ((k, m.length) :: mp.others k)).count b +
        (some m.length : Option Nat).toList.count b + R.count b := by
      intro b
      have e1 := h3 b
      have e2 := hu b
      have e3 := hm b
      have e4 := count_split mp k b
      simp only [PMap.ptrs, List.map_cons, List.count_cons, Option.toList, List.count_nil] at e4 e3 e1 ⊢
      by_cases hb : b = m.length
      · subst hb
        simp only [beq_self_eq_true, if_true] at *
        omega
      · have : ¬ (m.length == b) = true := by simpa using fun h => hb h.symm
        simp only [this, hb, if_false] at *
        simp
        omega
    refine ⟨some m.length, (k, m.length) :: mp.others k, m', ?_, h2, huc, ?_, (fun h => by cases h), ?_⟩
    · unfold keep
      dsimp only
      rw [h1]
      rfl
    · intro b hb hb'
      rw [h4 b hb', ho, if_neg (by have := useCount_lt hb; omega)]
    · intro k' o' y hx hf
      simp only [Option.some.injEq, Prod.mk.injEq] at hx
      obtain ⟨rfl, rfl⟩ := hx
      have hobj : obj m' m.length = some o := by
        rw [h4 _ (by rw [huc]; simp [PMap.ptrs]; omega), ho, if_pos rfl]
      refine ⟨by simp [hobj, hf], ?_, by rw [get_put]; simp⟩
      funext i
      unfold derefMap upd
      rw [get_put]
      by_cases hi : i = k
      · simp [hi, hobj, hf]
      · simp only [hi, if_false]
        cases hg : mp.get i with
        | none => rfl
        | some a =>
          have ha : a ∈ (mp.others k).ptrs := by
            have := get_put mp k m.length i
            rw [if_neg hi, hg] at this
            have h5 := get_mem this
            simp only [PMap.ptrs, List.map_cons, List.mem_cons] at h5
            rcases h5 with h5 | h5
            · have h6 := get_mem hg
              have h7 : 0 < useCount m a := by
                rw [hm]
                have := List.count_pos_iff.mpr h6
                omega
              have := useCount_lt h7
              omega
            · exact h5
          have hpos : 0 < useCount m' a := by
            rw [huc]
            have := List.count_pos_iff.mpr ha
            simp only [PMap.ptrs, List.map_cons, List.count_cons] at this ⊢
            omega
          have hpm : 0 < useCount m a := by
            rw [hm]
            have := List.count_pos_iff.mpr (get_mem hg)
            omega
          dsimp only [Option.bind_some]
          rw [h4 a hpos, ho, if_neg (by have := useCount_lt hpm; omega)]

/-! ### Worlds -/

/-- What all steps preserve: the counts are the numbers of pointers. -/
structure HInv (w : World) : Prop where
  pos : Pos w.mem
  counts : ∀ b, useCount w.mem b = (pointers w).count b

/-- Objects that are still there are the same. -/
def Keeps (m m' : Mem) : Prop := ∀ b, 0 < useCount m b → 0 < useCount m' b → obj m' b = obj m b

theorem derefMap_congr {α : Type} {f : Obj → Option α} {m m' : Mem} {mp : PMap} (h : ∀ a ∈ mp.ptrs, obj m' a = obj m a) :
    derefMap f m' mp = derefMap f m mp := by
  funext k
  unfold derefMap
  cases hg : mp.get k with
  | none => rfl
  | some a =>
    dsimp only [Option.bind_some]
    rw [h a (get_mem hg)]

theorem store_congr {m m' : Mem} {σ : PStore} (h : ∀ a ∈ σ.ptrs, obj m' a = obj m a) : σ.deref m' = σ.deref m := by
  unfold PStore.deref
  unfold PStore.ptrs at h
  rw [derefMap_congr (f := Obj.asSps) (fun a ha => h a (by simp [ha])), derefMap_congr (f := Obj.asPps) (fun a ha => h a (by simp [ha])),
    derefMap_congr (f := Obj.asSubset) (fun a ha => h a (by simp [ha]))]

theorem pload_congr {m m' : Mem} {p : PPayload} (h : ∀ a ∈ p.ptrs, obj m' a = obj m a) : p.deref m' = p.deref m := by
  obtain ⟨r, a, b, c⟩ := p
  unfold PPayload.deref
  unfold PPayload.ptrs at h
  have e : ∀ {α : Type} (f : Obj → Option α) (x : Option Nat), (∀ a ∈ x.toList, obj m' a = obj m a) →
      (x.bind fun a => (obj m' a).bind f) = x.bind fun a => (obj m a).bind f := by
    intro α f x hx
    cases x with
    | none => rfl
    | some a => dsimp only [Option.bind_some]; rw [hx a (by simp)]
  dsimp only at h ⊢
  rw [e Obj.asSps a (fun x hx => h x (by simp [hx])), e Obj.asPps b (fun x hx => h x (by simp [hx])),
    e Obj.asSubset c (fun x hx => h x (by simp [hx]))]

theorem HInv.pos_of_mem {w : World} (h : HInv w) {a : Nat} (ha : a ∈ pointers w) : 0 < useCount w.mem a := by
  rw [h.counts]
  exact List.count_pos_iff.mpr ha

theorem state_ptr {w : World} {σ : PStore} (h : some σ ∈ w.states) {a : Nat} (ha : a ∈ σ.ptrs) : a ∈ pointers w := by
  unfold pointers
  exact List.mem_append_left _ (List.mem_flatMap.mpr ⟨some σ, h, ha⟩)

theorem result_ptr {w : World} {p : PPayload} (h : some p ∈ w.results) {a : Nat} (ha : a ∈ p.ptrs) : a ∈ pointers w := by
  unfold pointers
  exact List.mem_append_right _ (List.mem_flatMap.mpr ⟨some p, h, ha⟩)

theorem state_same {w w' : World} (hw : HInv w) (hw' : HInv w') (hk : Keeps w.mem w'.mem) {x : Option PStore} (h : x ∈ w.states)
    (h' : x ∈ w'.states) : x.map (PStore.deref w'.mem) = x.map (PStore.deref w.mem) := by
  cases x with
  | none => rfl
  | some σ =>
    simp only [Option.map_some, Option.some.injEq]
    exact store_congr fun a ha => hk a (hw.pos_of_mem (state_ptr h ha)) (hw'.pos_of_mem (state_ptr h' ha))

theorem result_same {w w' : World} (hw : HInv w) (hw' : HInv w') (hk : Keeps w.mem w'.mem) {x : Option PPayload} (h : x ∈ w.results)
    (h' : x ∈ w'.results) : x.map (PPayload.deref w'.mem) = x.map (PPayload.deref w.mem) := by
  cases x with
  | none => rfl
  | some p =>
    simp only [Option.map_some, Option.some.injEq]
    exact pload_congr fun a ha => hk a (hw.pos_of_mem (result_ptr h ha)) (hw'.pos_of_mem (result_ptr h' ha))

theorem map_set_congr {α β : Type} {l : List α} {g g' : α → β} {i : Nat} {y : α} (h : ∀ x, x ∈ l → x ∈ l.set i y → g' x = g x) :
    (l.set i y).map g' = (l.map g).set i (g' y) := by
  apply List.ext_getElem?
  intro j
  rw [List.getElem?_map, List.getElem?_set, List.getElem?_set, List.getElem?_map, List.length_map]
  by_cases hj : i = j
  · subst hj
    by_cases hl : i < l.length <;> simp [hl]
  · rw [if_neg hj, if_neg hj]
    cases hx : l[j]? with
    | none => rfl
    | some x =>
      simp only [Option.map_some, Option.some.injEq]
      refine h x (List.mem_of_getElem? hx) (List.mem_of_getElem? (i := j) ?_)
      rw [List.getElem?_set, if_neg hj, hx]

theorem count_set {α : Type} {l : List α} {i : Nat} {x : α} (f : α → List Nat) (h : l[i]? = some x) (y : α) (b : Nat) :
    ((l.set i y).flatMap f).count b + (f x).count b = (l.flatMap f).count b + (f y).count b := by
  induction l generalizing i with
  | nil => simp at h
  | cons z l ih =>
    cases i with
    | zero =>
      simp only [List.getElem?_cons_zero, Option.some.injEq] at h
      subst h
      simp only [List.set_cons_zero, List.flatMap_cons, List.count_append]
      omega
    | succ i =>
      simp only [List.getElem?_cons_succ] at h
      have := ih h
      simp only [List.set_cons_succ, List.flatMap_cons, List.count_append]
      omega

theorem hold_spec {w : World} (hw : HInv w) {p : PPayload} (h : ∀ a ∈ p.ptrs, a ∈ pointers w) : ∃ w', w.hold p = .ok w' ∧ HInv w' ∧
    values w' = { values w with results := (values w).results ++ [some (p.deref w.mem)] } := by
  obtain ⟨m, h1, h2, h3, h4⟩ := incrAll_spec p.ptrs hw.pos (fun a ha => hw.pos_of_mem (h a ha))
  refine ⟨{ w with mem := m, results := w.results ++ [some p] }, by unfold World.hold; rw [h1]; rfl, ⟨h2, fun b => ?_⟩, ?_⟩
  · dsimp only
    rw [h3, hw.counts]
    simp only [pointers, List.flatMap_append, List.count_append, List.flatMap_cons, List.flatMap_nil, List.append_nil, Option.map_some,
      Option.getD_some]
    omega
  · have es : ∀ σ : PStore, σ.deref m = σ.deref w.mem := fun σ => store_congr fun a _ => h4 a
    have ep : ∀ q : PPayload, q.deref m = q.deref w.mem := fun q => pload_congr fun a _ => h4 a
    simp only [values, List.map_append, List.map_cons, List.map_nil, Option.map_some, ep]
    rw [show PStore.deref m = PStore.deref w.mem from funext es, show PPayload.deref m = PPayload.deref w.mem from funext ep]

theorem payload_store {nd : Bool} {σ σ' : Store} {h : NalHeader} {l t : LSt} {p : Payload}
    (e : runL nd (parsePayload σ h) l = .ok (p, σ') t) : σ' = ((σ.addSps p.sps).addPps p.pps).addSubsetSps p.subset_sps := by
  rw [runL_payload] at e
  revert e
  split
  · cases runL nd (parseSliceLayer σ h.nal_ref_idc h.nal_unit_type) l <;> simp <;> rintro rfl rfl _ <;> rfl
  split
  · cases runL nd parseSps l <;> simp <;> rintro rfl rfl _ <;> rfl
  split
  · cases runL nd (parsePps 1) l <;> simp <;> rintro rfl rfl _ <;> rfl
  split
  · cases runL nd (parsePrefixPayload h) l <;> simp <;> rintro rfl rfl _ <;> rfl
  split
  · cases runL nd parseSubsetSps l <;> simp <;> rintro rfl rfl _ <;> rfl
  split
  · cases runL nd (parseSliceLayerExt σ h) l <;> simp <;> rintro rfl rfl _ <;> rfl
  simp; rintro rfl rfl _; rfl

def put {α : Type} (key : α → Nat) (f : Nat → Option α) : Option α → Nat → Option α
  | some z => upd f (key z) z
  | none => f

/-- The entry that `keep` writes, as a value. -/
theorem keep_value {α : Type} {f : Obj → Option α} {c : α → Obj} (hc : ∀ y, f (c y) = some y) {key : α → Nat} {m m' : Mem} {mp mp' : PMap}
    {r : Option Nat} {y : Option α}
    (h1 : (y.map fun y => (key y, c y)) = none → r = none ∧ derefMap f m' mp' = derefMap f m mp)
    (h2 : ∀ k o z, (y.map fun y => (key y, c y)) = some (k, o) → f o = some z → ((r.bind fun a => (obj m' a).bind f) = some z ∧
        derefMap f m' mp' = upd (derefMap f m mp) k z ∧ mp'.get k = r)) :
    (r.bind fun a => (obj m' a).bind f) = y ∧
      derefMap f m' mp' = put key (derefMap f m mp) y ∧
      ∀ z, y = some z → mp'.get (key z) = r := by
  cases y with
  | none => obtain ⟨rfl, e⟩ := h1 rfl; exact ⟨rfl, e, fun z hz => by cases hz⟩
  | some y =>
    obtain ⟨e1, e2, e3⟩ := h2 _ _ _ rfl (hc y)
    exact ⟨e1, e2, fun z hz => by cases hz; exact e3⟩

/-- Parsing, where `R` is all pointers except those of the state. -/
theorem parse_spec {nd : Bool} {h : NalHeader} {s : St} {σ : PStore} {m : Mem} (hp : Pos m) {R : List Nat}
    (hm : ∀ b, useCount m b = σ.ptrs.count b + R.count b) (hs : s.buf.WF) (hσ : (σ.deref m).Valid) :
    ∃ r σ' m', parse nd h s σ m = .ok (r, σ', m') ∧ Pos m' ∧
      (∀ b, useCount m' b = σ'.ptrs.count b + ((r.map PPayload.ptrs).getD []).count b + R.count b) ∧
      (∀ b ∈ R, obj m' b = obj m b) ∧ (σ'.deref m').Valid ∧
      ((∃ t, run nd (parsePayload (σ.deref m) h) s = .null t ∧ r = none ∧ σ' = σ ∧ m' = m) ∨
        ∃ p q t, run nd (parsePayload (σ.deref m) h) s = .ok (q, σ'.deref m') t ∧ r = some p ∧ p.deref m' = q ∧
          (∀ x, q.sps = some x → σ'.sps.get x.seq_parameter_set_id = p.sps) ∧
          (∀ x, q.pps = some x → σ'.pps.get x.pic_parameter_set_id = p.pps) ∧
          ∀ x, q.subset_sps = some x → σ'.subset_sps.get x.seq_parameter_set_data.seq_parameter_set_id = p.subset_sps) := by
  have hlive : (σ.ptrs.all fun a => (obj m a).isSome) = true := by
    rw [List.all_eq_true]
    intro a ha
    have : 0 < useCount m a := by
      rw [hm]
      have := List.count_pos_iff.mpr ha
      omega
    obtain ⟨o, _, _, _, h5⟩ := live_of_pos this
    rw [h5]
    rfl
  unfold parse
  rw [if_pos hlive]
  have hr := run_rem nd (parsePayload (σ.deref m) h) hs s.cnt
  rw [show (⟨s.buf, s.cnt⟩ : St) = s from rfl] at hr
  revert hr
  cases hrun : run nd (parsePayload (σ.deref m) h) s with
  | bad e => intro hr; exact absurd hr (safe_payload hσ h nd _ e)
  | null t =>
    intro _
    exact ⟨none, σ, m, rfl, hp, fun b => by simpa using hm b, fun _ _ => rfl, hσ, .inl ⟨t, rfl, rfl, rfl, rfl⟩⟩
  | ok x t =>
    obtain ⟨q, τ⟩ := x
    intro hr
    have hv := payload_valid nd hσ h hr.2.2
    have hτ := payload_store hr.2.2
    clear hr
    dsimp only
    obtain ⟨a, sps, m1, k1, p1, c1, o1, n1, s1⟩ := keep_spec Obj.asSps hp (mp := σ.sps) (R := σ.pps.ptrs ++ σ.subset_sps.ptrs ++ R)
      (fun b => by rw [hm]; simp only [PStore.ptrs, List.count_append]; omega) (q.sps.map fun x => (x.seq_parameter_set_id, .sps x))
    obtain ⟨b, pps, m2, k2, p2, c2, o2, n2, s2⟩ := keep_spec Obj.asPps p1 (mp := σ.pps) (R := sps.ptrs ++ a.toList ++ σ.subset_sps.ptrs ++ R)
      (fun b => by rw [c1]; simp only [List.count_append]; omega) (q.pps.map fun x => (x.pic_parameter_set_id, .pps x))
    obtain ⟨c, sub, m3, k3, p3, c3, o3, n3, s3⟩ := keep_spec Obj.asSubset p2 (mp := σ.subset_sps)
      (R := sps.ptrs ++ a.toList ++ pps.ptrs ++ b.toList ++ R)
      (fun b => by rw [c2]; simp only [List.count_append]; omega)
      (q.subset_sps.map fun x => (x.seq_parameter_set_data.seq_parameter_set_id, .subset x))
    have e1 := keep_value (f := Obj.asSps) (c := Obj.sps) (fun _ => rfl) n1 s1
    have e2 := keep_value (f := Obj.asPps) (c := Obj.pps) (fun _ => rfl) n2 s2
    have e3 := keep_value (f := Obj.asSubset) (c := Obj.subset) (fun _ => rfl) n3 s3
    -- pointers that are in all the counts
    have hR : ∀ d ∈ R, obj m3 d = obj m d := by
      intro d hd
      have hd := List.count_pos_iff.mpr hd
      have g0 : 0 < useCount m d := by rw [hm]; omega
      have g1 : 0 < useCount m1 d := by rw [c1]; simp only [List.count_append]; omega
      have g2 : 0 < useCount m2 d := by rw [c2]; simp only [List.count_append]; omega
      have g3 : 0 < useCount m3 d := by rw [c3]; simp only [List.count_append]; omega
      rw [o3 d g2 g3, o2 d g1 g2, o1 d g0 g1]
    have h13 : ∀ d ∈ sps.ptrs ++ a.toList, obj m3 d = obj m1 d := by
      intro d hd
      have hd := List.count_pos_iff.mpr hd
      simp only [List.count_append] at hd
      have g1 : 0 < useCount m1 d := by rw [c1]; simp only [List.count_append]; omega
      have g2 : 0 < useCount m2 d := by rw [c2]; simp only [List.count_append]; omega
      have g3 : 0 < useCount m3 d := by rw [c3]; simp only [List.count_append]; omega
      rw [o3 d g2 g3, o2 d g1 g2]
    have h23 : ∀ d ∈ pps.ptrs ++ b.toList, obj m3 d = obj m2 d := by
      intro d hd
      have hd := List.count_pos_iff.mpr hd
      simp only [List.count_append] at hd
      have g2 : 0 < useCount m2 d := by rw [c2]; omega
      have g3 : 0 < useCount m3 d := by rw [c3]; simp only [List.count_append]; omega
      rw [o3 d g2 g3]
    have h01 : ∀ d ∈ σ.pps.ptrs, obj m1 d = obj m d := by
      intro d hd
      have hd := List.count_pos_iff.mpr hd
      have g0 : 0 < useCount m d := by rw [hm]; simp only [PStore.ptrs, List.count_append]; omega
      have g1 : 0 < useCount m1 d := by rw [c1]; simp only [List.count_append]; omega
      rw [o1 d g0 g1]
    have h02 : ∀ d ∈ σ.subset_sps.ptrs, obj m2 d = obj m d := by
      intro d hd
      have hd := List.count_pos_iff.mpr hd
      have g0 : 0 < useCount m d := by rw [hm]; simp only [PStore.ptrs, List.count_append]; omega
      have g1 : 0 < useCount m1 d := by rw [c1]; simp only [List.count_append]; omega
      have g2 : 0 < useCount m2 d := by rw [c2]; simp only [List.count_append]; omega
      rw [o2 d g1 g2, o1 d g0 g1]
    have d1 : derefMap Obj.asSps m3 sps = derefMap Obj.asSps m1 sps := derefMap_congr fun d hd => h13 d (by simp [hd])
    have d2 : derefMap Obj.asPps m3 pps = derefMap Obj.asPps m2 pps := derefMap_congr fun d hd => h23 d (by simp [hd])
    have d3 : derefMap Obj.asPps m1 σ.pps = derefMap Obj.asPps m σ.pps := derefMap_congr h01
    have d4 : derefMap Obj.asSubset m2 σ.subset_sps = derefMap Obj.asSubset m σ.subset_sps := derefMap_congr h02
    rw [d3] at e2
    rw [d4] at e3
    have hst : PStore.deref m3 { sps := sps, pps := pps, subset_sps := sub } = τ := by
      rw [hτ]
      unfold PStore.deref
      dsimp only
      rw [d1, d2, e1.2.1, e2.2.1, e3.2.1]
      cases q.sps <;> cases q.pps <;> cases q.subset_sps <;> rfl
    have ea : (a.bind fun d => (obj m3 d).bind Obj.asSps) = q.sps := by
      rw [← e1.1]
      cases a with
      | none => rfl
      | some d => dsimp only [Option.bind_some]; rw [h13 d (by simp)]
    have eb : (b.bind fun d => (obj m3 d).bind Obj.asPps) = q.pps := by
      rw [← e2.1]
      cases b with
      | none => rfl
      | some d => dsimp only [Option.bind_some]; rw [h23 d (by simp)]
    have ec := e3.1
    refine ⟨some { rest := { q with sps := none, pps := none, subset_sps := none }, sps := a, pps := b, subset_sps := c },
      { sps := sps, pps := pps, subset_sps := sub }, m3, ?_, p3, fun d => ?_, hR, by rw [hst]; exact hv, .inr ⟨_, q, t, by rw [hst], rfl, ?_,
        e1.2.2, e2.2.2, e3.2.2⟩⟩
    · rw [k1]
      dsimp only [bind, Except.bind]
      rw [k2]
      dsimp only [bind, Except.bind]
      rw [k3]
      rfl
    · rw [c3]
      simp only [PStore.ptrs, PPayload.ptrs, Option.map_some, Option.getD_some, List.count_append]
      omega
    · unfold PPayload.deref
      dsimp only
      rw [ea, eb, ec]

/-- All the states of a world are valid. -/
def HGood (w : World) : Prop := HInv w ∧ ∀ σ, some σ ∈ w.states → (σ.deref w.mem).Valid

theorem valid_of_values {w w' : World} (h : ∀ x, some x ∈ (values w').states → some x ∈ (values w).states ∨ x = {} ∨ x.Valid)
    (hv : ∀ σ, some σ ∈ w.states → (σ.deref w.mem).Valid) (h0 : Store.Valid {}) : ∀ σ, some σ ∈ w'.states → (σ.deref w'.mem).Valid := by
  intro σ hσ
  have hm : some (σ.deref w'.mem) ∈ (values w').states := by
    unfold values
    exact List.mem_map.mpr ⟨some σ, hσ, rfl⟩
  rcases h _ hm with h | h | h
  · unfold values at h
    obtain ⟨o, h1, h2⟩ := List.mem_map.mp h
    cases o with
    | none => cases h2
    | some τ =>
      simp only [Option.map_some, Option.some.injEq] at h2
      rw [← h2]
      exact hv τ h1
  · rw [h]; exact h0
  · exact h

theorem values_state {w : World} {i : Nat} {σ : PStore} (h : w.states[i]? = some (some σ)) :
    (values w).states[i]? = some (some (σ.deref w.mem)) := by
  unfold values
  rw [List.getElem?_map, h]
  rfl

theorem values_result {w : World} {i : Nat} {p : PPayload} (h : w.results[i]? = some (some p)) :
    (values w).results[i]? = some (some (p.deref w.mem)) := by
  unfold values
  rw [List.getElem?_map, h]
  rfl

theorem values_nostate {w : World} {i : Nat} (h : ∀ σ, ¬ w.states[i]? = some (some σ)) (x : Store) :
    ¬ (values w).states[i]? = some (some x) := by
  unfold values
  rw [List.getElem?_map]
  intro hx
  cases hw : w.states[i]? with
  | none => rw [hw] at hx; cases hx
  | some o =>
    cases o with
    | none => rw [hw] at hx; cases hx
    | some σ => exact h σ hw

theorem values_noresult {w : World} {i : Nat} (h : ∀ p, ¬ w.results[i]? = some (some p)) (x : Payload) :
    ¬ (values w).results[i]? = some (some x) := by
  unfold values
  rw [List.getElem?_map]
  intro hx
  cases hw : w.results[i]? with
  | none => rw [hw] at hx; cases hx
  | some o =>
    cases o with
    | none => rw [hw] at hx; cases hx
    | some σ => exact h σ hw

theorem set_none_of {α : Type} {l : List (Option α)} {i : Nat} (h : ∀ x, ¬ l[i]? = some (some x)) : l.set i none = l := by
  apply List.ext_getElem?
  intro j
  rw [List.getElem?_set]
  by_cases hj : i = j
  · subst hj
    by_cases hl : i < l.length
    · simp only [if_true, hl]
      cases hx : l[i]? with
      | none => rw [List.getElem?_eq_none_iff] at hx; omega
      | some o =>
        cases o with
        | none => rfl
        | some x => exact absurd hx (h x)
    · simp only [if_true, hl, if_false]
      rw [List.getElem?_eq_none (by omega)]
  · rw [if_neg hj]

theorem set_self {α : Type} {l : List α} {i : Nat} {x : α} (h : l[i]? = some x) : l.set i x = l := by
  apply List.ext_getElem?
  intro j
  rw [List.getElem?_set]
  by_cases hj : i = j
  · subst hj
    have : i < l.length := by
      refine Nat.lt_of_not_le fun hc => ?_
      rw [List.getElem?_eq_none hc] at h
      cases h
    simp [this, ← h]
  · rw [if_neg hj]

/-- The step lemma. -/
theorem step_spec {w : World} (hw : HGood w) (act : Act) (hr : Readable act) :
    ∃ w', step w act = .ok w' ∧ HGood w' ∧ values w' = (values w).step act := by
  obtain ⟨hi, hv⟩ := hw
  have h0 : Store.Valid {} := valid_empty
  have hold : ∀ (p : PPayload), (∀ a ∈ p.ptrs, a ∈ pointers w) → ∃ w', w.hold p = .ok w' ∧ HGood w' ∧
      values w' = { values w with results := (values w).results ++ [some (p.deref w.mem)] } := by
    intro p hp
    obtain ⟨w', h1, h2, h3⟩ := hold_spec hi hp
    exact ⟨w', h1, ⟨h2, valid_of_values (fun x hx => .inl (by rw [h3] at hx; exact hx)) hv h0⟩, h3⟩
  cases act with
  | create =>
    refine ⟨_, rfl, ⟨⟨hi.pos, fun b => ?_⟩, ?_⟩, ?_⟩
    · dsimp only
      rw [hi.counts]
      simp [pointers, PStore.ptrs, PMap.ptrs]
    · intro σ hσ
      simp only [List.mem_append, List.mem_singleton, Option.some.injEq] at hσ
      rcases hσ with h | rfl
      · exact hv σ h
      · exact h0
    · simp only [values, Values.step, List.map_append, List.map_cons, List.map_nil, Option.map_some]
      rfl
  | destroy i =>
    by_cases hx : ∃ σ, w.states[i]? = some (some σ)
    · obtain ⟨σ, hx⟩ := hx
      have hc := fun b => count_set (fun o : Option PStore => (o.map PStore.ptrs).getD []) hx none b
      obtain ⟨m, h1, h2, h3, h4⟩ := decrAll_spec σ.ptrs hi.pos (fun a => by
        rw [hi.counts]
        have := hc a
        simp only [Option.map_some, Option.getD_some, Option.map_none, Option.getD_none, List.count_nil] at this
        simp only [pointers, List.count_append]
        omega)
      have hi' : HInv { w with mem := m, states := w.states.set i none } := ⟨h2, fun b => by
        have e1 := hc b
        have e2 := h3 b
        have e3 := hi.counts b
        simp only [Option.map_some, Option.getD_some, Option.map_none, Option.getD_none, List.count_nil] at e1
        simp only [pointers, List.count_append] at e3 ⊢
        omega⟩
      have hk : Keeps w.mem m := fun b _ hb => h4 b hb
      have hval : values { w with mem := m, states := w.states.set i none } = (values w).step (.destroy i) := by
        unfold values Values.step
        dsimp only
        congr 1
        · rw [map_set_congr (g := fun o => o.map (PStore.deref w.mem)) (fun x hx hx' => state_same hi hi' hk hx hx')]
          rfl
        · exact List.map_congr_left fun x hx => result_same hi hi' hk hx hx
      refine ⟨_, by unfold step; dsimp only; rw [hx]; dsimp only; rw [h1]; rfl, ⟨hi', valid_of_values (fun x hx => .inl ?_) hv h0⟩, hval⟩
      rw [hval] at hx
      unfold Values.step at hx
      rcases List.mem_or_eq_of_mem_set hx with h | h
      · exact h
      · cases h
    · have hx : ∀ σ, ¬ w.states[i]? = some (some σ) := fun σ h => hx ⟨σ, h⟩
      refine ⟨w, ?_, ⟨hi, hv⟩, ?_⟩
      · unfold step
        dsimp only
        split
        · rename_i σ h; exact absurd h (hx σ)
        · rfl
      · unfold Values.step
        dsimp only
        rw [set_none_of (values_nostate hx)]
  | parse nd i h s =>
    by_cases hx : ∃ σ, w.states[i]? = some (some σ)
    · obtain ⟨σ, hx⟩ := hx
      have hc := fun y b => count_set (fun o : Option PStore => (o.map PStore.ptrs).getD []) hx y b
      have hmem : some σ ∈ w.states := List.mem_of_getElem? hx
      obtain ⟨r, σ', m, h1, h2, h3, h4, h5, h6⟩ := parse_spec (nd := nd) (h := h) (s := s) hi.pos
        (R := pointers { w with states := w.states.set i none }) (fun b => by
          have e1 := hc none b
          have e3 := hi.counts b
          simp only [Option.map_some, Option.getD_some, Option.map_none, Option.getD_none, List.count_nil] at e1
          simp only [pointers, List.count_append] at e3 ⊢
          omega) hr (hv σ hmem)
      have hi' : HInv { mem := m, states := w.states.set i (some σ'), results := w.results ++ [r] } := ⟨h2, fun b => by
        have e1 := hc none b
        have e2 := hc (some σ') b
        have e3 := h3 b
        simp only [Option.map_some, Option.getD_some, Option.map_none, Option.getD_none, List.count_nil] at e1 e2
        simp only [pointers, List.count_append, List.flatMap_append, List.flatMap_cons, List.flatMap_nil, List.append_nil] at e3 ⊢
        omega⟩
      have hst : (w.states.set i (some σ')).map (fun o => o.map (PStore.deref m)) =
          (values w).states.set i (some (σ'.deref m)) := by
        have e : w.states.set i (some σ') = (w.states.set i none).set i (some σ') := by rw [List.set_set]
        rw [e, map_set_congr (g := fun o => o.map (PStore.deref w.mem)), List.map_set, List.set_set]
        · rfl
        · intro x hx _
          cases x with
          | none => rfl
          | some τ =>
            simp only [Option.map_some, Option.some.injEq]
            exact store_congr fun a ha => h4 a (state_ptr (w := { w with states := w.states.set i none }) hx ha)
      have hres : w.results.map (fun o => o.map (PPayload.deref m)) = (values w).results := by
        unfold values
        refine List.map_congr_left fun x hx => ?_
        cases x with
        | none => rfl
        | some p =>
          simp only [Option.map_some, Option.some.injEq]
          exact pload_congr fun a ha => h4 a (result_ptr (w := { w with states := w.states.set i none }) hx ha)
      have hval : values { mem := m, states := w.states.set i (some σ'), results := w.results ++ [r] } =
          (values w).step (.parse nd i h s) := by
        have e : values { mem := m, states := w.states.set i (some σ'), results := w.results ++ [r] } =
            { states := (values w).states.set i (some (σ'.deref m)), results := (values w).results ++ [r.map (PPayload.deref m)] } := by
          rw [← hst, ← hres]
          simp only [values, List.map_append, List.map_cons, List.map_nil]
        rw [e]
        unfold Values.step
        dsimp only
        rw [values_state hx]
        dsimp only
        rcases h6 with ⟨t, e1, rfl, rfl, rfl⟩ | ⟨p, q, t, e1, rfl, e2, _⟩
        · rw [e1]
          dsimp only
          congr 1
          rw [set_self (values_state hx)]
        · rw [e1]
          dsimp only
          rw [← e2]
          rfl
      refine ⟨_, by unfold step; dsimp only; rw [hx]; dsimp only; rw [h1]; rfl, ⟨hi', valid_of_values (fun x hx => ?_) hv h0⟩, hval⟩
      have : some x ∈ (values w).states.set i (some (σ'.deref m)) := by rw [← hst]; exact hx
      rcases List.mem_or_eq_of_mem_set this with h | h
      · exact .inl h
      · cases h; exact .inr (.inr h5)
    · have hx : ∀ σ, ¬ w.states[i]? = some (some σ) := fun σ h => hx ⟨σ, h⟩
      refine ⟨w, ?_, ⟨hi, hv⟩, ?_⟩
      · unfold step
        dsimp only
        split
        · rename_i σ h; exact absurd h (hx σ)
        · rfl
      · unfold Values.step
        dsimp only
        split
        · rename_i σ h; exact absurd h (values_nostate hx σ)
        · rfl
  | getSps i k =>
    by_cases hx : ∃ σ, w.states[i]? = some (some σ)
    · obtain ⟨σ, hx⟩ := hx
      obtain ⟨w', h1, h2, h3⟩ := hold { sps := σ.sps.get k } (fun a ha => by
        simp only [PPayload.ptrs, Option.toList_none, List.append_nil, Option.mem_toList] at ha
        exact state_ptr (List.mem_of_getElem? hx) (by unfold PStore.ptrs; simp [get_mem ha]))
      refine ⟨w', by unfold step; dsimp only; rw [hx]; exact h1, h2, ?_⟩
      rw [h3]
      unfold Values.step
      dsimp only
      rw [values_state hx]
      rfl
    · have hx : ∀ σ, ¬ w.states[i]? = some (some σ) := fun σ h => hx ⟨σ, h⟩
      refine ⟨w, ?_, ⟨hi, hv⟩, ?_⟩
      · unfold step
        dsimp only
        split
        · rename_i σ h; exact absurd h (hx σ)
        · rfl
      · unfold Values.step
        dsimp only
        split
        · rename_i σ h; exact absurd h (values_nostate hx σ)
        · rfl
  | getPps i k =>
    by_cases hx : ∃ σ, w.states[i]? = some (some σ)
    · obtain ⟨σ, hx⟩ := hx
      obtain ⟨w', h1, h2, h3⟩ := hold { pps := σ.pps.get k } (fun a ha => by
        simp only [PPayload.ptrs, Option.toList_none, List.append_nil, List.nil_append, Option.mem_toList] at ha
        exact state_ptr (List.mem_of_getElem? hx) (by unfold PStore.ptrs; simp [get_mem ha]))
      refine ⟨w', by unfold step; dsimp only; rw [hx]; exact h1, h2, ?_⟩
      rw [h3]
      unfold Values.step
      dsimp only
      rw [values_state hx]
      rfl
    · have hx : ∀ σ, ¬ w.states[i]? = some (some σ) := fun σ h => hx ⟨σ, h⟩
      refine ⟨w, ?_, ⟨hi, hv⟩, ?_⟩
      · unfold step
        dsimp only
        split
        · rename_i σ h; exact absurd h (hx σ)
        · rfl
      · unfold Values.step
        dsimp only
        split
        · rename_i σ h; exact absurd h (values_nostate hx σ)
        · rfl
  | getSubsetSps i k =>
    by_cases hx : ∃ σ, w.states[i]? = some (some σ)
    · obtain ⟨σ, hx⟩ := hx
      obtain ⟨w', h1, h2, h3⟩ := hold { subset_sps := σ.subset_sps.get k } (fun a ha => by
        simp only [PPayload.ptrs, Option.toList_none, List.nil_append, Option.mem_toList] at ha
        exact state_ptr (List.mem_of_getElem? hx) (by unfold PStore.ptrs; simp [get_mem ha]))
      refine ⟨w', by unfold step; dsimp only; rw [hx]; exact h1, h2, ?_⟩
      rw [h3]
      unfold Values.step
      dsimp only
      rw [values_state hx]
      rfl
    · have hx : ∀ σ, ¬ w.states[i]? = some (some σ) := fun σ h => hx ⟨σ, h⟩
      refine ⟨w, ?_, ⟨hi, hv⟩, ?_⟩
      · unfold step
        dsimp only
        split
        · rename_i σ h; exact absurd h (hx σ)
        · rfl
      · unfold Values.step
        dsimp only
        split
        · rename_i σ h; exact absurd h (values_nostate hx σ)
        · rfl
  | share j =>
    by_cases hx : ∃ p, w.results[j]? = some (some p)
    · obtain ⟨p, hx⟩ := hx
      obtain ⟨w', h1, h2, h3⟩ := hold { p with rest := {} } (fun a ha => result_ptr (List.mem_of_getElem? hx) ha)
      refine ⟨w', by unfold step; dsimp only; rw [hx]; exact h1, h2, ?_⟩
      rw [h3]
      unfold Values.step
      dsimp only
      rw [values_result hx]
      rfl
    · have hx : ∀ σ, ¬ w.results[j]? = some (some σ) := fun σ h => hx ⟨σ, h⟩
      refine ⟨w, ?_, ⟨hi, hv⟩, ?_⟩
      · unfold step
        dsimp only
        split
        · rename_i σ h; exact absurd h (hx σ)
        · rfl
      · unfold Values.step
        dsimp only
        split
        · rename_i σ h; exact absurd h (values_noresult hx σ)
        · rfl
  | release j =>
    by_cases hx : ∃ p, w.results[j]? = some (some p)
    · obtain ⟨p, hx⟩ := hx
      have hc := fun b => count_set (fun o : Option PPayload => (o.map PPayload.ptrs).getD []) hx none b
      obtain ⟨m, h1, h2, h3, h4⟩ := decrAll_spec p.ptrs hi.pos (fun a => by
        rw [hi.counts]
        have := hc a
        simp only [Option.map_some, Option.getD_some, Option.map_none, Option.getD_none, List.count_nil] at this
        simp only [pointers, List.count_append]
        omega)
      have hi' : HInv { w with mem := m, results := w.results.set j none } := ⟨h2, fun b => by
        have e1 := hc b
        have e2 := h3 b
        have e3 := hi.counts b
        simp only [Option.map_some, Option.getD_some, Option.map_none, Option.getD_none, List.count_nil] at e1
        simp only [pointers, List.count_append] at e3 ⊢
        omega⟩
      have hk : Keeps w.mem m := fun b _ hb => h4 b hb
      have hval : values { w with mem := m, results := w.results.set j none } = (values w).step (.release j) := by
        unfold values Values.step
        dsimp only
        congr 1
        · exact List.map_congr_left fun x hx => state_same hi hi' hk hx hx
        · rw [map_set_congr (g := fun o => o.map (PPayload.deref w.mem)) (fun x hx hx' => result_same hi hi' hk hx hx')]
          rfl
      refine ⟨_, by unfold step; dsimp only; rw [hx]; dsimp only; rw [h1]; rfl, ⟨hi', valid_of_values (fun x hx => .inl ?_) hv h0⟩, hval⟩
      rw [hval] at hx
      exact hx
    · have hx : ∀ σ, ¬ w.results[j]? = some (some σ) := fun σ h => hx ⟨σ, h⟩
      refine ⟨w, ?_, ⟨hi, hv⟩, ?_⟩
      · unfold step
        dsimp only
        split
        · rename_i σ h; exact absurd h (hx σ)
        · rfl
      · unfold Values.step
        dsimp only
        rw [set_none_of (values_noresult hx)]

theorem exec_spec : ∀ (acts : List Act) {w : World}, HGood w → (∀ x ∈ acts, Readable x) →
    ∃ w', exec acts w = .ok w' ∧ HGood w' ∧ values w' = acts.foldl Values.step (values w)
  | [], w, hw, _ => ⟨w, rfl, hw, rfl⟩
  | x :: acts, w, hw, h => by
    obtain ⟨w1, h1, h2, h3⟩ := step_spec hw x (h x (by simp))
    obtain ⟨w2, h4, h5, h6⟩ := exec_spec acts h2 (fun y hy => h y (by simp [hy]))
    refine ⟨w2, by unfold exec; rw [h1]; exact h4, h5, ?_⟩
    rw [h6, h3]
    rfl

theorem good_empty : HGood {} := by
  refine ⟨⟨fun a h => ?_, fun b => ?_⟩, fun σ h => ?_⟩
  · simp [obj] at h
  · simp [useCount, pointers]
  · simp at h

/-! ### C76 -/

/-- **C76.**  Whatever a program does with parser states and results — it creates states, parses with them, asks them for parameter sets,
copies the pointers in results, and destroys states and results, in any order — no freed object is ever accessed; the `use_count` of every
object is the number of pointers to it that the program or its parser states have; and an object exists exactly as long as there is one. -/
theorem C76_pointers (acts : List Act) (h : ∀ x ∈ acts, Readable x) : ∃ w, exec acts {} = .ok w ∧
    (∀ a, useCount w.mem a = (pointers w).count a) ∧ ∀ a, obj w.mem a ≠ none ↔ a ∈ pointers w := by
  obtain ⟨w, h1, h2, _⟩ := exec_spec acts good_empty h
  refine ⟨w, h1, h2.1.counts, fun a => ⟨fun ha => ?_, fun ha => ?_⟩⟩
  · have := h2.1.pos a ha
    rw [h2.1.counts] at this
    exact List.count_pos_iff.mp this
  · obtain ⟨o, _, _, _, h5⟩ := live_of_pos (h2.1.pos_of_mem ha)
    rw [h5]
    simp

/-- **C76, no leak.**  Once all states and results are destroyed, all objects are freed. -/
theorem C76_freed (acts : List Act) (h : ∀ x ∈ acts, Readable x) {w : World} (he : exec acts {} = .ok w) (hg : AllGone w) :
    ∀ c ∈ w.mem, c = none := by
  obtain ⟨w', h1, _, h3⟩ := C76_pointers acts h
  rw [h1] at he
  cases he
  intro c hc
  obtain ⟨a, ha⟩ := List.mem_iff_getElem?.mp hc
  cases c with
  | none => rfl
  | some c =>
    have : a ∈ pointers w := (h3 a).mp (by unfold obj; rw [ha]; simp)
    unfold pointers at this
    rcases List.mem_append.mp this with h | h
    · obtain ⟨x, hx, hxa⟩ := List.mem_flatMap.mp h
      rw [hg.1 x hx] at hxa
      simp at hxa
    · obtain ⟨x, hx, hxa⟩ := List.mem_flatMap.mp h
      rw [hg.2 x hx] at hxa
      simp at hxa

/-! ### C77 -/

/-- **C77.**  What the program sees is what it would see if parameter sets were values: copied into the parser state when they are parsed,
and copied out when they are returned. -/
theorem C77_values (acts : List Act) (h : ∀ x ∈ acts, Readable x) : ∃ w, exec acts {} = .ok w ∧ values w = acts.foldl Values.step {} := by
  obtain ⟨w, h1, _, h3⟩ := exec_spec acts good_empty h
  exact ⟨w, h1, h3⟩

theorem step_keeps_result {v : Values} {j : Nat} {x : Option Payload} (hj : v.results[j]? = some x) {act : Act} (ha : act ≠ .release j) :
    (v.step act).results[j]? = some x := by
  have hl : j < v.results.length := by
    refine Nat.lt_of_not_le fun hc => ?_
    rw [List.getElem?_eq_none hc] at hj
    cases hj
  have app : ∀ y, (v.results ++ [y])[j]? = some x := fun y => by rw [List.getElem?_append_left hl, hj]
  cases act with
  | create => exact hj
  | destroy i => exact hj
  | release i =>
    have : i ≠ j := fun h => ha (by rw [h])
    unfold Values.step
    dsimp only
    rw [List.getElem?_set, if_neg this, hj]
  | parse nd i h s =>
    unfold Values.step
    dsimp only
    split
    · split
      · exact app _
      · exact app _
    · exact hj
  | getSps i k => unfold Values.step; dsimp only; split; exact app _; exact hj
  | getPps i k => unfold Values.step; dsimp only; split; exact app _; exact hj
  | getSubsetSps i k => unfold Values.step; dsimp only; split; exact app _; exact hj
  | share i => unfold Values.step; dsimp only; split; exact app _; exact hj

/-- **C77, results last.**  A result, with the parameter sets that it points to, is unchanged until it is destroyed: whatever is parsed
later, and even when the parser state that it came from is destroyed. -/
theorem C77_results_last (acts more : List Act) (h : ∀ x ∈ acts ++ more, Readable x) {j : Nat} (hj : ∀ x ∈ more, x ≠ .release j) {w : World}
    (he : exec acts {} = .ok w) {x : Option Payload} (hx : (values w).results[j]? = some x) :
    ∃ w', exec more w = .ok w' ∧ (values w').results[j]? = some x := by
  obtain ⟨w1, h1, h2, _⟩ := exec_spec acts good_empty (fun y hy => h y (by simp [hy]))
  rw [h1] at he
  cases he
  obtain ⟨w2, h4, _, h6⟩ := exec_spec more h2 (fun y hy => h y (by simp [hy]))
  refine ⟨w2, h4, ?_⟩
  rw [h6]
  have key : ∀ (l : List Act) (v : Values), (∀ x ∈ l, x ≠ .release j) → v.results[j]? = some x →
      (l.foldl Values.step v).results[j]? = some x := by
    intro l
    induction l with
    | nil => exact fun v _ h => h
    | cons y l ih => exact fun v hl h => ih _ (fun z hz => hl z (by simp [hz])) (step_keeps_result h (hl y (by simp)))
  exact key more _ hj hx

/-- **C77, sharing.**  A returned parameter set is not a copy: it is the object that the parser state stores under its id. -/
theorem C77_shared (acts : List Act) (h : ∀ x ∈ acts, Readable x) {w w' : World} (he : exec acts {} = .ok w) {nd : Bool} {i : Nat}
    {hd : NalHeader} {s : St} (hs : s.buf.WF) (he' : step w (.parse nd i hd s) = .ok w') {p : PPayload}
    (hp : w'.results[w.results.length]? = some (some p)) :
    ∃ σ, w'.states[i]? = some (some σ) ∧
      (∀ x, (p.deref w'.mem).sps = some x → σ.sps.get x.seq_parameter_set_id = p.sps) ∧
      (∀ x, (p.deref w'.mem).pps = some x → σ.pps.get x.pic_parameter_set_id = p.pps) ∧
      ∀ x, (p.deref w'.mem).subset_sps = some x → σ.subset_sps.get x.seq_parameter_set_data.seq_parameter_set_id = p.subset_sps := by
  obtain ⟨w1, h1, ⟨hi, hv⟩, _⟩ := exec_spec acts good_empty h
  rw [h1] at he
  cases he
  unfold step at he'
  dsimp only at he'
  cases hx : w.states[i]? with
  | none =>
    rw [hx] at he'
    cases he'
    rw [List.getElem?_eq_none (Nat.le_refl _)] at hp
    cases hp
  | some o =>
    cases o with
    | none =>
      rw [hx] at he'
      cases he'
      rw [List.getElem?_eq_none (Nat.le_refl _)] at hp
      cases hp
    | some σ =>
      rw [hx] at he'
      have hc := fun y b => count_set (fun o : Option PStore => (o.map PStore.ptrs).getD []) hx y b
      obtain ⟨r, σ', m, e1, _, _, _, _, e6⟩ := parse_spec (nd := nd) (h := hd) (s := s) hi.pos
        (R := pointers { w with states := w.states.set i none }) (fun b => by
          have e1 := hc none b
          have e3 := hi.counts b
          simp only [Option.map_some, Option.getD_some, Option.map_none, Option.getD_none, List.count_nil] at e1
          simp only [pointers, List.count_append] at e3 ⊢
          omega) hs (hv σ (List.mem_of_getElem? hx))
      dsimp only at he'
      rw [e1] at he'
      cases he'
      dsimp only at hp ⊢
      rw [List.getElem?_append_right (Nat.le_refl _)] at hp
      simp only [Nat.sub_self, List.getElem?_cons_zero, Option.some.injEq] at hp
      subst hp
      rcases e6 with ⟨_, _, e, _⟩ | ⟨p', q, t, _, e, e2, e3, e4, e5⟩
      · cases e
      · cases e
        refine ⟨σ', ?_, ?_⟩
        · have : i < w.states.length := by
            refine Nat.lt_of_not_le fun hc => ?_
            rw [List.getElem?_eq_none hc] at hx
            cases hx
          rw [List.getElem?_set]
          simp [this]
        · rw [e2]
          exact ⟨e3, e4, e5⟩

/-! ### Examples -/

/-- A parser state reads an SPS, and then another one with the same id; the first is asked for in between; then the state is destroyed,
and then all results. -/
def exActs (nd : Bool) : List Act :=
  [.create, .parse nd 0 (exHdr 3 7) ⟨Buf.start (exStapSpsNal.drop 1), 0⟩, .getSps 0 0,
    .parse nd 0 (exHdr 3 7) ⟨Buf.start (exOtherSpsNal.drop 1), 0⟩, .destroy 0, .release 0, .release 1, .release 2]

theorem exActs_readable (nd : Bool) : ∀ x ∈ exActs nd, Readable x := by
  intro x hx
  simp only [exActs, List.mem_cons, List.not_mem_nil, or_false] at hx
  rcases hx with rfl | rfl | rfl | rfl | rfl | rfl | rfl | rfl
  all_goals first | exact trivial | exact Buf.start_wf (by decide +kernel)

/-- What a program sees at the end of some steps: the counts, and the levels of the SPS that the results point to. -/
def exSeen (r : Except HBad World) : Option (List Nat × List (Option Nat)) :=
  match r with
  | .ok w => some ((List.range w.mem.length).map (useCount w.mem),
      (values w).results.map fun o => (o.bind (·.sps)).map (·.level_idc))
  | .error _ => none

/-- After the first SPS, and its copy: the state, the payload and the copy point to it. -/
example (nd : Bool) : exSeen (exec ((exActs nd).take 3) {}) = some ([3], [some 40, some 40]) := by
  cases nd <;> decide +kernel
/-- The second SPS takes its place in the state; the results still have the first. -/
example (nd : Bool) : exSeen (exec ((exActs nd).take 4) {}) = some ([2, 2], [some 40, some 40, some 41]) := by
  cases nd <;> decide +kernel
/-- The state is destroyed; the results still have what they had. -/
example (nd : Bool) : exSeen (exec ((exActs nd).take 5) {}) = some ([2, 1], [some 40, some 40, some 41]) := by
  cases nd <;> decide +kernel
/-- The first SPS outlives its payload. -/
example (nd : Bool) : exSeen (exec ((exActs nd).take 6) {}) = some ([1, 1], [none, some 40, some 41]) := by
  cases nd <;> decide +kernel
/-- All gone. -/
example (nd : Bool) : ∃ w, exec (exActs nd) {} = .ok w ∧ w.mem.length = 2 ∧ AllGone w ∧ ∀ c ∈ w.mem, c = none := by
  obtain ⟨w, h1, _⟩ := C76_pointers (exActs nd) (exActs_readable nd)
  have h2 : (match exec (exActs nd) {} with
    | .ok w => w.mem.length == 2 && w.states.all (·.isNone) && w.results.all (·.isNone)
    | .error _ => false) = true := by cases nd <;> decide +kernel
  rw [h1] at h2
  simp only [Bool.and_eq_true, beq_iff_eq, List.all_eq_true, Option.isNone_iff_eq_none] at h2
  exact ⟨w, h1, h2.1.1, ⟨h2.1.2, h2.2⟩, C76_freed _ (exActs_readable nd) h1 ⟨h2.1.2, h2.2⟩⟩
example (nd : Bool) : ∃ w, exec (exActs nd) {} = .ok w ∧ values w = (exActs nd).foldl Values.step {} :=
  C77_values _ (exActs_readable nd)
/-- An assignment through a pointer that was returned changes what the parser state holds, and what another result points to. -/
example (nd : Bool) : ∃ w, exec ((exActs nd).take 3) {} = .ok w ∧
    (∃ p a, w.results[0]? = some (some p) ∧ p.sps = some a ∧
      ((values w).states.map fun o => (o.bind fun σ => σ.sps 0).map (·.level_idc)) = [some 40] ∧
      ((values (write w a (.sps {}))).states.map fun o => (o.bind fun σ => σ.sps 0).map (·.level_idc)) = [some 0] ∧
      ((values (write w a (.sps {}))).results.map fun o => (o.bind (·.sps)).map (·.level_idc)) = [some 0, some 0]) := by
  have h : (match exec ((exActs nd).take 3) {} with
    | .ok w => (match w.results[0]? with
      | some (some p) => (match p.sps with
        | some a => decide (((values w).states.map fun o => (o.bind fun σ => σ.sps 0).map (·.level_idc)) = [some 40] ∧
            ((values (write w a (.sps {}))).states.map fun o => (o.bind fun σ => σ.sps 0).map (·.level_idc)) = [some 0] ∧
            ((values (write w a (.sps {}))).results.map fun o => (o.bind (·.sps)).map (·.level_idc)) = [some 0, some 0])
        | none => false)
      | _ => false)
    | .error _ => false) = true := by cases nd <;> decide +kernel
  cases hw : exec ((exActs nd).take 3) {} with
  | error e => rw [hw] at h; cases h
  | ok w =>
    rw [hw] at h
    refine ⟨w, rfl, ?_⟩
    dsimp only at h
    split at h
    · rename_i p hp
      split at h
      · rename_i a ha
        exact ⟨p, a, hp, ha, of_decide_eq_true h⟩
      · cases h
    · cases h

end H264.Props
