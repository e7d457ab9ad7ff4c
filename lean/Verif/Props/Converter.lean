import Verif.Model.Converter
import Verif.Spec.Converter

/-! # C88: the seeds are the arrays of the unit tests

`fuzz/converter.py` makes fuzzers and seeds out of unit tests.  The seeds are the arrays, if these are written with lower-case literals of two
digits and the array ends as the script expects it.  One array in /repo does not. -/

namespace H264.Props

open H264 H264.Conv

theorem hasSub_iff (p : List Char) : ∀ l : List Char, hasSub p l = true ↔ p <:+: l
  | [] => by
    rw [hasSub, List.isEmpty_iff, List.infix_nil]
  | c :: r => by
    rw [hasSub, Bool.or_eq_true, List.isPrefixOf_iff_prefix, hasSub_iff p r, List.infix_cons_iff]

theorem hasSub_false {p l : List Char} (h : ¬ p <:+: l) : hasSub p l = false := by
  rw [← Bool.not_eq_true, hasSub_iff]
  exact h

theorem appendLast_concat {α : Type} (x : α) (b : List α) : ∀ r : List (List α), appendLast (r ++ [b]) x = some (r ++ [b ++ [x]])
  | [] => rfl
  | [a] => rfl
  | a :: c :: r => by
    have := appendLast_concat x b (c :: r)
    simp only [List.cons_append] at this ⊢
    rw [appendLast, this]
    rfl

theorem findHex_step {c : Char} {r : List Char} (h : c = '0' → ∀ s, r ≠ 'x' :: s) : findHex 0 (c :: r) = findHex 0 r := by
  rw [findHex]
  exact fun a b s h1 h2 => h h1 _ h2

/-- Text without `0x` has no literals. -/
theorem findHex_text : ∀ {t r : List Char}, ¬ "0x".toList <:+: t → (∀ s, r ≠ 'x' :: s) → findHex 0 (t ++ r) = findHex 0 r
  | [], _, _, _ => rfl
  | c :: t, r, h, hr => by
    have ht : ¬ "0x".toList <:+: t := fun k => h (List.infix_cons_iff.mpr (.inr k))
    rw [List.cons_append, findHex_step, findHex_text ht hr]
    rintro rfl s e
    cases t with
    | nil => exact hr s e
    | cons d t =>
      simp only [List.cons_append, List.cons.injEq] at e
      obtain ⟨rfl, -⟩ := e
      exact h ⟨[], t, rfl⟩

theorem digit_hex : ∀ n < 16, isHex (Nat.digitChar n) = true ∧ hexVal (Nat.digitChar n) = n ∧ Nat.digitChar n ≠ '\n' := by decide +kernel

theorem findHex_literal {b : UInt8} {r : List Char} : findHex 0 (Conv.literal b ++ r) =
    (Nat.digitChar (b.toNat / 16), Nat.digitChar (b.toNat % 16)) :: findHex 0 r := by
  have hb := b.toNat_lt
  rw [Conv.literal]
  simp only [List.cons_append, List.nil_append]
  rw [findHex]
  simp only [(digit_hex (b.toNat / 16) (by omega)).1, (digit_hex (b.toNat % 16) (by omega)).1, Bool.and_self, if_true]
  rw [findHex, findHex, findHex]

/-- The bytes of the literals. -/
def bytesOf (ds : List (Char × Char)) : List UInt8 := ds.map fun d => UInt8.ofNat (16 * hexVal d.1 + hexVal d.2)

theorem byte_literal (b : UInt8) : UInt8.ofNat (16 * hexVal (Nat.digitChar (b.toNat / 16)) + hexVal (Nat.digitChar (b.toNat % 16))) = b := by
  have hb := b.toNat_lt
  rw [(digit_hex (b.toNat / 16) (by omega)).2.1, (digit_hex (b.toNat % 16) (by omega)).2.1, Nat.div_add_mod]
  exact UInt8.ofNat_toNat

theorem findHex_line {l : List Char} {bs : List UInt8} (h : Literals l bs) : l.getLast? = some '\n' → ∀ r : List Char,
    bytesOf (findHex 0 (l ++ r)) = bs ++ bytesOf (findHex 0 r) := by
  induction h with
  | @text t ht =>
    intro hn r
    -- the line break cannot be part of a literal
    obtain ⟨s, rfl⟩ : ∃ s, t = s ++ ['\n'] := by
      obtain ⟨s, e⟩ := List.getLast?_eq_some_iff.mp hn
      exact ⟨s, e⟩
    have hs : ¬ "0x".toList <:+: s := fun k => ht (k.trans ⟨[], ['\n'], by simp⟩)
    rw [List.append_assoc, findHex_text hs (by intro s e; cases e), List.singleton_append, findHex_step (by intro e; cases e)]
    rfl
  | @literal t r b bs ht _ ih =>
    intro hn r'
    have hr : r.getLast? = some '\n' := by
      cases hr : r with
      | nil =>
        rw [hr, List.append_nil, List.getLast?_append] at hn
        have hb := b.toNat_lt
        simp only [Conv.literal, List.getLast?_cons_cons, List.getLast?_singleton, Option.some_or, Option.some.injEq] at hn
        exact absurd hn (digit_hex (b.toNat % 16) (by omega)).2.2
      | cons x y =>
        rw [hr, List.getLast?_append] at hn
        rw [← hn, List.getLast?_cons, Option.some_or]
    rw [List.append_assoc, List.append_assoc, findHex_text ht (by intro s e; cases e), findHex_literal, bytesOf, List.map_cons, byte_literal,
      ← bytesOf, ih hr r', List.cons_append]

/-- A line of whitespace has no literals. -/
theorem blank_bytes {l : List Char} {bs : List UInt8} (h : Literals l bs) : l.all isSpace = true → bs = [] := by
  cases h with
  | text => exact fun _ => rfl
  | literal =>
    intro h
    rw [List.all_append, List.all_append, Conv.literal, List.all_cons] at h
    simp [isSpace] at h

/-! ### The loop -/

/-- Between a mark and the end of the array. -/
def InArray (s : State) (done : List (List (List Char))) (cur : List (List Char)) : Prop :=
  s.data_mode = true ∧ s.lines_data = done ++ [cur]

/-- The code is only collected in a block that exists. -/
def CodeOk (s : State) : Prop := s.code_mode = true → ∃ r b, s.blocks_code = r ++ [b]

theorem store_out {s : State} (l : List Char) (h : s.data_mode = false) (hc : CodeOk s) :
    ∃ s', store s l = some s' ∧ s'.data_mode = false ∧ s'.lines_data = s.lines_data ∧ CodeOk s' := by
  unfold store
  rw [h]
  simp only [Bool.false_eq_true, if_false]
  cases hm : s.code_mode with
  | false => exact ⟨s, by simp [hm], h, rfl, hc⟩
  | true =>
    obtain ⟨r, b, e⟩ := hc hm
    refine ⟨{ s with blocks_code := r ++ [b ++ [l]] }, by simp [hm, e, appendLast_concat], h, rfl, fun _ => ⟨r, _, rfl⟩⟩

theorem store_in {s : State} {done : List (List (List Char))} {cur : List (List Char)} (l : List Char) (h : InArray s done cur) (hc : CodeOk s) :
    ∃ s', store s l = some s' ∧ InArray s' done (cur ++ [l]) ∧ CodeOk s' := by
  unfold store
  rw [h.1, h.2, appendLast_concat]
  cases hm : s.code_mode with
  | false => exact ⟨{ s with lines_data := done ++ [cur ++ [l]] }, by simp [hm, h.1], ⟨h.1, rfl⟩, hc⟩
  | true =>
    obtain ⟨r, b, e⟩ := hc hm
    refine ⟨{ s with lines_data := done ++ [cur ++ [l]], blocks_code := r ++ [b ++ [l]] }, by simp [hm, h.1, e, appendLast_concat], ⟨h.1, rfl⟩,
      fun _ => ⟨r, _, rfl⟩⟩

theorem sub_mark {l : List Char} {n : String} (h : ¬ "fuzzer::conv:".toList <:+: l) (hn : "fuzzer::conv:".toList <+: n.toList) :
    hasSub n.toList l = false := hasSub_false fun k => h (hn.isInfix.trans k)

/-- A line outside of an array. -/
theorem step_out {s : State} {l : List Char} (h : s.data_mode = false) (hc : CodeOk s) (hl : ¬ marksData l) :
    ∃ s', step s l = some s' ∧ s'.data_mode = false ∧ s'.lines_data = s.lines_data ∧ CodeOk s' := by
  unfold step
  split
  · exact ⟨s, rfl, h, rfl, hc⟩
  split
  · exact store_out (s := { s with lines_include := s.lines_include ++ [l] }) l h hc
  rw [hasSub_false hl]
  simp only [Bool.false_eq_true, if_false]
  split
  · exact store_out (s := { s with data_mode := false }) l rfl hc
  split
  · exact ⟨_, rfl, rfl, rfl, fun _ => ⟨_, _, rfl⟩⟩
  split
  · exact ⟨_, rfl, h, rfl, fun k => by cases k⟩
  · exact store_out l h hc

/-- A line of an array. -/
theorem step_in {s : State} {done : List (List (List Char))} {cur : List (List Char)} {l : List Char} (h : InArray s done cur) (hc : CodeOk s)
    (h1 : ¬ "fuzzer::conv:".toList <:+: l) (_h2 : l ≠ "};\n".toList) :
    ∃ s', step s l = some s' ∧ InArray s' done (cur ++ if l.all isSpace then [] else [l]) ∧ CodeOk s' := by
  unfold step
  split
  · exact ⟨s, rfl, by simpa using h, hc⟩
  rw [sub_mark h1 (by decide), sub_mark h1 (by decide), sub_mark h1 (by decide)]
  simp only [Bool.false_eq_true, if_false]
  split
  · exact store_in (s := { s with lines_include := s.lines_include ++ [l] }) l h hc
  · exact store_in l h hc

/-- The line that ends an array. -/
theorem step_stop {s : State} {done : List (List (List Char))} {cur : List (List Char)} {l : List Char} (h : InArray s done cur) (hc : CodeOk s)
    (hl : l = "};\n".toList ∨ ("fuzzer::conv: begin".toList <:+: l ∧ ¬ marksData l ∧ ¬ "#include ".toList <+: l)) :
    ∃ s', step s l = some s' ∧ s'.data_mode = false ∧ s'.lines_data = done ++ [cur] ∧ CodeOk s' := by
  rcases hl with rfl | ⟨h1, h2, h3⟩
  · obtain ⟨s', k1, k2, k3, k4⟩ := store_out (s := { s with data_mode := false }) "};\n".toList rfl hc
    refine ⟨s', ?_, k2, by rw [k3]; exact h.2, k4⟩
    unfold step
    rw [if_neg (by decide), if_neg (by decide), if_neg (by decide), if_pos rfl]
    exact k1
  · refine ⟨{ s with data_mode := false, code_mode := true, blocks_code := s.blocks_code ++ [[]] }, ?_, rfl, h.2, fun _ => ⟨_, _, rfl⟩⟩
    unfold step
    have hf : ¬ l.all isSpace = true := by
      intro k
      have : 'f' ∈ l := h1.subset (by decide)
      have := List.all_eq_true.mp k 'f' this
      revert this
      decide
    rw [if_neg hf, if_neg (by rw [List.isPrefixOf_iff_prefix]; exact h3), if_neg (by rw [hasSub_iff]; exact h2), if_neg ?_,
      if_pos (by rw [hasSub_iff]; exact h1)]
    rintro rfl
    revert h1
    rw [← hasSub_iff]
    decide

/-- The mark of an array. -/
theorem step_mark {s : State} {l : List Char} (hc : CodeOk s) (h1 : marksData l) (h2 : ¬ "#include ".toList <+: l) :
    ∃ s', step s l = some s' ∧ InArray s' s.lines_data [] ∧ CodeOk s' := by
  refine ⟨{ s with data_mode := true, lines_data := s.lines_data ++ [[]] }, ?_, ⟨rfl, rfl⟩, hc⟩
  unfold step
  have hf : ¬ l.all isSpace = true := by
    intro k
    have : 'f' ∈ l := h1.subset (by decide)
    have := List.all_eq_true.mp k 'f' this
    revert this
    decide
  rw [if_neg hf, if_neg (by rw [List.isPrefixOf_iff_prefix]; exact h2), if_pos (by rw [hasSub_iff]; exact h1)]

theorem run_append : ∀ (ls ms : List (List Char)) (s : State), run s (ls ++ ms) = (run s ls).bind fun s => run s ms
  | [], _, _ => rfl
  | l :: ls, ms, s => by
    rw [List.cons_append, run, run]
    cases step s l with
    | none => rfl
    | some s => exact run_append ls ms s

theorem run_out : ∀ (ls : List (List Char)) {s : State}, s.data_mode = false → CodeOk s → (∀ l ∈ ls, ¬ marksData l) →
    ∃ s', run s ls = some s' ∧ s'.data_mode = false ∧ s'.lines_data = s.lines_data ∧ CodeOk s'
  | [], s, h, hc, _ => ⟨s, rfl, h, rfl, hc⟩
  | l :: ls, s, h, hc, hl => by
    obtain ⟨s1, k1, k2, k3, k4⟩ := step_out h hc (hl l (List.mem_cons_self ..))
    obtain ⟨s2, k5, k6, k7, k8⟩ := run_out ls k2 k4 (fun x hx => hl x (List.mem_cons_of_mem _ hx))
    exact ⟨s2, by rw [run, k1]; exact k5, k6, by rw [k7, k3], k8⟩

theorem run_in : ∀ (xs : List (List Char × List UInt8)) {s : State} {done : List (List (List Char))} {cur : List (List Char)}, InArray s done cur →
    CodeOk s → (∀ x ∈ xs, Literals x.1 x.2 ∧ x.1.getLast? = some '\n' ∧ ¬ "fuzzer::conv:".toList <:+: x.1 ∧ x.1 ≠ "};\n".toList) →
    ∃ s' ls, run s (xs.map (·.1)) = some s' ∧ InArray s' done (cur ++ ls) ∧ CodeOk s' ∧ seed ls = xs.flatMap (·.2)
  | [], s, _, _, h, hc, _ => ⟨s, [], rfl, by rw [List.append_nil]; exact h, hc, rfl⟩
  | x :: xs, s, done, cur, h, hc, hx => by
    obtain ⟨h1, h2, h3, h4⟩ := hx x (List.mem_cons_self ..)
    obtain ⟨s1, k1, k2, k3⟩ := step_in h hc h3 h4
    obtain ⟨s2, ls, k4, k5, k6, k7⟩ := run_in xs k2 k3 (fun y hy => hx y (List.mem_cons_of_mem _ hy))
    refine ⟨s2, (if x.1.all isSpace then [] else [x.1]) ++ ls, by rw [List.map_cons, run, k1]; exact k4, by rw [← List.append_assoc]; exact k5, k6, ?_⟩
    rw [List.flatMap_cons, ← k7]
    split
    · next hb => rw [blank_bytes h1 hb]; rfl
    · exact findHex_line h1 h2 _

theorem run_marked : ∀ (ms : List Marked) {s : State}, s.data_mode = false → CodeOk s → (∀ m ∈ ms, m.Good) →
    ∃ s' ds, run s (ms.flatMap Marked.lines) = some s' ∧ s'.lines_data = s.lines_data ++ ds ∧ ds.map seed = ms.map Marked.bytes
  | [], s, _, _, _ => ⟨s, [], rfl, (List.append_nil _).symm, rfl⟩
  | m :: ms, s, h, hc, hm => by
    have hg := hm m (List.mem_cons_self ..)
    obtain ⟨s1, a1, a2, a3⟩ := step_mark hc hg.mark.1 hg.mark.2
    obtain ⟨s2, ls, b1, b2, b3, b4⟩ := run_in m.array a2 a3 hg.array
    obtain ⟨s3, c1, c2, c3, c4⟩ := step_stop b2 b3 hg.stop
    obtain ⟨s4, d1, d2, d3, d4⟩ := run_out m.others c2 c4 hg.others
    obtain ⟨s5, ds, e1, e2, e3⟩ := run_marked ms d2 d4 (fun x hx => hm x (List.mem_cons_of_mem _ hx))
    refine ⟨s5, ls :: ds, ?_, ?_, ?_⟩
    · rw [List.flatMap_cons, run_append, Marked.lines, List.cons_append, run, a1, Option.bind_some, run_append, b1, Option.bind_some, run, c1,
        Option.bind_some, d1, Option.bind_some]
      exact e1
    · rw [e2, d3, c3, List.nil_append, List.append_assoc]
      rfl
    · rw [List.map_cons, List.map_cons, e3, b4]
      rfl

/-- C88, for arrays that are marked as the script expects it: there is one seed for each of them, in order, and it has its bytes.
What is missing: any other array, see `C88_comment`, `C88_upper_case`. -/
theorem C88_seeds_partial (pre : List (List Char)) (ms : List Marked) (hp : ∀ l ∈ pre, ¬ marksData l) (hm : ∀ m ∈ ms, m.Good) :
    ∃ out, parseInput (pre ++ ms.flatMap Marked.lines) = some out ∧ out.data = ms.map Marked.bytes := by
  obtain ⟨s1, a1, a2, a3, a4⟩ := run_out pre (s := {}) rfl (fun h => by cases h) hp
  obtain ⟨s2, ds, b1, b2, b3⟩ := run_marked ms a2 a4 hm
  refine ⟨_, by rw [parseInput, run_append, a1, Option.bind_some, b1]; rfl, ?_⟩
  show s2.lines_data.map seed = _
  rw [b2, a3, ← b3]
  rfl

/-! ### The code -/

theorem subst_skip (q : List Char) : ∀ (x : List Char) (c : Char) (b : Bool), subst b (x ++ [c]).length (x ++ [c] ++ q) = subst (isWord c) 0 q
  | [], c, b => by
    show subst b 1 (c :: q) = _
    rw [subst]
  | d :: x, c, b => by
    show subst b ((x ++ [c]).length + 1) (d :: (x ++ [c] ++ q)) = _
    rw [subst, subst_skip q x c]

theorem dropWhile_stops {f : Char → Bool} {d : Char} (hd : f d = false) (t : List Char) : ∀ p : List Char, d ∈ p →
    ∃ c p', c ∈ p ∧ (p ++ t).dropWhile f = c :: p'
  | [], h => by cases h
  | e :: p, h => by
    rw [List.cons_append, List.dropWhile_cons]
    split
    · next he =>
      rcases List.mem_cons.mp h with rfl | h
      · rw [hd] at he; cases he
      · obtain ⟨c, p', h1, h2⟩ := dropWhile_stops hd t p h
        exact ⟨c, p', List.mem_cons_of_mem _ h1, h2⟩
    · exact ⟨e, _, List.mem_cons_self .., rfl⟩

theorem callAt_none {p t : List Char} {d : Char} (hd : d ∈ p) (hw : isWord d = false) (hp : ',' ∉ p) : callAt (p ++ t) = none := by
  obtain ⟨c, p', h1, h2⟩ := dropWhile_stops hw t p hd
  unfold callAt
  rw [h2]
  have : c ≠ ',' := fun e => hp (e ▸ h1)
  split
  · next e => cases e; exact absurd rfl this
  · rfl

theorem takeWhile_pre {f : Char → Bool} {d : Char} (hd : f d = false) (t : List Char) : ∀ w : List Char, (∀ c ∈ w, f c = true) →
    (w ++ d :: t).takeWhile f = w ∧ (w ++ d :: t).dropWhile f = d :: t
  | [], _ => by simp [hd]
  | c :: w, h => by
    obtain ⟨h1, h2⟩ := takeWhile_pre hd t w (fun x hx => h x (List.mem_cons_of_mem _ hx))
    rw [List.cons_append, List.takeWhile_cons, List.dropWhile_cons, if_pos (h c (List.mem_cons_self ..)), if_pos (h c (List.mem_cons_self ..)), h1, h2]
    exact ⟨rfl, rfl⟩

theorem bufferArgs_length (w ws : List Char) : (bufferArgs w ws).length = w.length + 1 + ws.length + 10 + w.length + 1 := by
  simp [bufferArgs]
  omega

theorem callAt_some {w ws q : List Char} (hw : ∀ c ∈ w, isWord c = true) (hne : w ≠ []) (hs : ∀ c ∈ ws, isSpace c = true) :
    callAt (bufferArgs w ws ++ q) = some (bufferArgs w ws).length := by
  rw [bufferArgs_length]
  have e : bufferArgs w ws ++ q = w ++ ',' :: (ws ++ ('a' :: ("rraysize(".toList ++ w ++ [')'] ++ q))) := by
    simp [bufferArgs]
  have h1 := takeWhile_pre (f := isWord) (d := ',') (by decide) (ws ++ ('a' :: ("rraysize(".toList ++ w ++ [')'] ++ q))) w hw
  have h2 := takeWhile_pre (f := isSpace) (d := 'a') (by decide) ("rraysize(".toList ++ w ++ [')'] ++ q) ws hs
  unfold callAt
  rw [e, h1.1, h1.2]
  show (if w.isEmpty = true then none else if ("arraysize(".toList ++ w ++ [')']).isPrefixOf
    ((ws ++ 'a' :: ("rraysize(".toList ++ w ++ [')'] ++ q)).dropWhile isSpace) = true then
      some (w.length + 1 + ((ws ++ 'a' :: ("rraysize(".toList ++ w ++ [')'] ++ q)).takeWhile isSpace).length + 10 + w.length + 1) else none) = _
  rw [h2.1, h2.2, if_neg (by simp [hne]), if_pos ?_]
  rw [List.isPrefixOf_iff_prefix]
  exact ⟨q, by simp⟩

/-- C88: where the code passes an array and its size, whatever the name of the array and wherever the line breaks are, the fuzzer passes its
input instead. -/
theorem C88_buffer {w ws q : List Char} (hw : ∀ c ∈ w, isWord c = true) (hne : w ≠ []) (hs : ∀ c ∈ ws, isSpace c = true) :
    ∀ {p : List Char} {b : Bool}, ',' ∉ p → (p = [] → b = false) → (∀ c, p.getLast? = some c → isWord c = false) →
      subst b 0 (p ++ bufferArgs w ws ++ q) = p ++ "data, size".toList ++ subst false 0 q
  | [], b, _, hb, _ => by
    rw [List.nil_append, List.nil_append, hb rfl]
    have h1 := callAt_some (q := q) hw hne hs
    obtain ⟨c, x, e⟩ : ∃ c x, bufferArgs w ws = c :: (x ++ [')']) := by
      cases w with
      | nil => exact absurd rfl hne
      | cons c w => exact ⟨c, w ++ ',' :: (ws ++ ("arraysize(".toList ++ (c :: w))), by simp [bufferArgs]⟩
    rw [e, List.cons_append] at h1 ⊢
    rw [subst]
    simp only [Bool.false_eq_true, if_false, h1, List.length_cons, Nat.add_sub_cancel]
    rw [subst_skip]
    rfl
  | c :: p, b, hp, _, hl => by
    obtain ⟨d, hd⟩ : ∃ d, (c :: p).getLast? = some d := ⟨_, List.getLast?_eq_some_getLast (List.cons_ne_nil _ _)⟩
    have h1 := callAt_none (t := bufferArgs w ws ++ q) (List.mem_of_getLast? hd) (hl d hd) hp
    rw [List.append_assoc, List.cons_append, subst]
    rw [List.cons_append] at h1
    simp only [h1, ite_self]
    rw [List.cons_append, List.cons_append, ← List.append_assoc,
      C88_buffer hw hne hs (p := p) (fun h => hp (List.mem_cons_of_mem _ h)) ?_ ?_]
    · rintro rfl
      exact hl c rfl
    · intro x hx
      cases p with
      | nil => cases hx
      | cons y p => exact hl x (by rw [List.getLast?_cons_cons]; exact hx)

/-- A match is an array and its size. -/
theorem callAt_args {t : List Char} {n : Nat} (h : callAt t = some n) :
    ∃ w ws q, w ≠ [] ∧ (∀ c ∈ w, isWord c = true) ∧ (∀ c ∈ ws, isSpace c = true) ∧ t = bufferArgs w ws ++ q := by
  unfold callAt at h
  split at h
  · next r e =>
    replace h : (if (t.takeWhile isWord).isEmpty = true then none else if ("arraysize(".toList ++ t.takeWhile isWord ++ [')']).isPrefixOf
      (r.dropWhile isSpace) = true then some ((t.takeWhile isWord).length + 1 + (r.takeWhile isSpace).length + 10 + (t.takeWhile isWord).length + 1)
      else none) = some n := h
    split at h
    · cases h
    · next hw =>
      split at h
      · next hp =>
        obtain ⟨q, hq⟩ := List.isPrefixOf_iff_prefix.mp hp
        refine ⟨t.takeWhile isWord, r.takeWhile isSpace, q, by simpa using hw, fun c hc => List.all_eq_true.mp List.all_takeWhile c hc,
          fun c hc => List.all_eq_true.mp List.all_takeWhile c hc, ?_⟩
        have e1 := List.takeWhile_append_dropWhile (p := isWord) (l := t)
        have e2 := List.takeWhile_append_dropWhile (p := isSpace) (l := r)
        rw [e, ← e2, ← hq] at e1
        refine e1.symm.trans ?_
        simp [bufferArgs]
      · cases h
  · cases h

/-- C88: code that passes no array and its size in this way is not changed. -/
theorem C88_other : ∀ {t : List Char} {b : Bool},
    (∀ p w ws q, w ≠ [] → (∀ c ∈ w, isWord c = true) → (∀ c ∈ ws, isSpace c = true) → (p = [] → b = false) →
      (∀ c, p.getLast? = some c → isWord c = false) → t ≠ p ++ bufferArgs w ws ++ q) → subst b 0 t = t
  | [], _, _ => by rw [subst]
  | c :: t, b, h => by
    have h1 : (if b then none else callAt (c :: t)) = none := by
      cases b with
      | true => rfl
      | false =>
        cases hc : callAt (c :: t) with
        | none => rfl
        | some n =>
          obtain ⟨w, ws, q, k1, k2, k3, k4⟩ := callAt_args hc
          exact absurd k4 (h [] w ws q k1 k2 k3 (fun _ => rfl) (fun c hc => by cases hc))
    rw [subst, h1]
    dsimp only
    rw [C88_other (t := t)]
    intro p w ws q k1 k2 k3 k4 k5 e
    refine h (c :: p) w ws q k1 k2 k3 (fun k => by cases k) (fun d hd => ?_) (by rw [e]; rfl)
    cases p with
    | nil => cases hd; exact k4 rfl
    | cons x p => exact k5 d (by rw [← hd, List.getLast?_cons_cons])

/-! #### Words -/

/-- Words with one space in between. -/
def joinSp : List (List Char) → List Char
  | [] => []
  | [w] => w
  | w :: v :: ws => w ++ ' ' :: joinSp (v :: ws)

def IsWordOf (w : List Char) : Prop := w ≠ [] ∧ ∀ c ∈ w, isSpace c = false

theorem words_mem : ∀ (t : List Char), ∀ w ∈ words t, IsWordOf w
  | [], w, h => by simp [words] at h
  | c :: r, w, h => by
    rw [words] at h
    have ih := words_mem r
    split at h
    · exact ih w h
    · next hc =>
      have hc : isSpace c = false := by simpa using hc
      split at h
      · rcases List.mem_cons.mp h with rfl | h
        · exact ⟨by simp, by simpa using hc⟩
        · exact ih w h
      · split at h
        · next v vs e =>
          rw [e] at ih
          rcases List.mem_cons.mp h with rfl | h
          · refine ⟨by simp, fun d hd => ?_⟩
            rcases List.mem_cons.mp hd with rfl | hd
            · exact hc
            · exact (ih v (List.mem_cons_self ..)).2 d hd
          · exact ih w (List.mem_cons_of_mem _ h)
        · rw [List.mem_singleton] at h
          subst h
          exact ⟨by simp, by simpa using hc⟩

theorem words_ne {c : Char} (hc : isSpace c = false) (r : List Char) : words (c :: r) ≠ [] := by
  rw [words, if_neg (by simp [hc])]
  split
  · simp
  · split <;> simp

theorem collapse_words : ∀ t : List Char,
    (∃ tail, (tail = [] ∨ tail = [' ']) ∧ (words t = [] → tail = []) ∧ collapse true t = joinSp (words t) ++ tail) ∧
    ∀ c, isSpace c = false → ∃ tail, (tail = [] ∨ tail = [' ']) ∧ c :: collapse false t = joinSp (words (c :: t)) ++ tail
  | [] => by
    refine ⟨⟨[], .inl rfl, fun _ => rfl, by simp [collapse, words, joinSp]⟩, fun c hc => ⟨[], .inl rfl, ?_⟩⟩
    simp [collapse, words, joinSp, hc]
  | d :: t => by
    obtain ⟨⟨tl, h1, h2, h3⟩, h4⟩ := collapse_words t
    cases hd : isSpace d with
    | true =>
      have e : words (d :: t) = words t := by rw [words, if_pos hd]
      refine ⟨⟨tl, h1, by rw [e]; exact h2, by rw [e, collapse, if_pos hd, if_pos rfl, h3]⟩, fun c hc => ?_⟩
      have e2 : words (c :: d :: t) = [c] :: words t := by
        rw [words, if_neg (by simp [hc]), if_pos (by simp [hd]), e]
      rw [e2, collapse, if_pos hd, if_neg (by simp), h3]
      cases hw : words t with
      | nil =>
        rw [h2 hw]
        exact ⟨[' '], .inr rfl, by simp [joinSp]⟩
      | cons w ws => exact ⟨tl, h1, by simp [joinSp]⟩
    | false =>
      obtain ⟨tl2, k1, k2⟩ := h4 d hd
      refine ⟨⟨tl2, k1, fun k => absurd k (words_ne hd t), by rw [collapse, if_neg (by simp [hd]), k2]⟩, fun c hc => ?_⟩
      rw [collapse, if_neg (by simp [hd]), k2]
      refine ⟨tl2, k1, ?_⟩
      rw [words.eq_def (c :: d :: t)]
      simp only [hc, Bool.false_eq_true, if_false, List.head?_cons, Option.all_some, hd]
      cases hw : words (d :: t) with
      | nil => exact absurd hw (words_ne hd t)
      | cons w ws => cases ws <;> simp [joinSp]

theorem joinSp_head : ∀ {ws : List (List Char)}, ws ≠ [] → (∀ w ∈ ws, IsWordOf w) → ∃ c x, joinSp ws = c :: x ∧ isSpace c = false
  | [], h, _ => absurd rfl h
  | [] :: _, _, h => absurd rfl (h [] (List.mem_cons_self ..)).1
  | [c :: w], _, h => ⟨c, w, rfl, (h _ (List.mem_cons_self ..)).2 c (List.mem_cons_self ..)⟩
  | (c :: _) :: _ :: _, _, h => ⟨c, _, rfl, (h _ (List.mem_cons_self ..)).2 c (List.mem_cons_self ..)⟩

theorem joinSp_last : ∀ {ws : List (List Char)}, ws ≠ [] → (∀ w ∈ ws, IsWordOf w) → ∃ c x, joinSp ws = x ++ [c] ∧ isSpace c = false
  | [], h, _ => absurd rfl h
  | [w], _, h => by
    obtain ⟨h1, h2⟩ := h w (List.mem_cons_self ..)
    exact ⟨w.getLast h1, w.dropLast, (List.dropLast_concat_getLast h1).symm, h2 _ (List.getLast_mem h1)⟩
  | w :: v :: ws, _, h => by
    obtain ⟨c, x, e, hc⟩ := joinSp_last (ws := v :: ws) (by simp) (fun y hy => h y (List.mem_cons_of_mem _ hy))
    exact ⟨c, w ++ ' ' :: x, by rw [joinSp, e]; simp, hc⟩

theorem dropWhile_lead {lead x : List Char} {c : Char} (hl : lead = [] ∨ lead = [' ']) (hc : isSpace c = false) :
    (lead ++ c :: x).dropWhile isSpace = c :: x := by
  have h2 : isSpace ' ' = true := by decide
  rcases hl with rfl | rfl <;> simp [hc, h2]

/-- What is compared are the words. -/
theorem key_words (t : List Char) : key t = joinSp (words t) := by
  obtain ⟨lead, tail, hl, ht, e⟩ : ∃ lead tail, (lead = [] ∨ lead = [' ']) ∧ (tail = [] ∨ tail = [' ']) ∧
      collapse false t = lead ++ (joinSp (words t) ++ tail) := by
    cases t with
    | nil => exact ⟨[], [], .inl rfl, .inl rfl, by simp [collapse, words, joinSp]⟩
    | cons c t =>
      cases hc : isSpace c with
      | true =>
        obtain ⟨⟨tl, h1, _, h3⟩, _⟩ := collapse_words t
        refine ⟨[' '], tl, .inr rfl, h1, ?_⟩
        rw [collapse, if_pos hc, if_neg (by simp), words, if_pos hc, h3]
        rfl
      | false =>
        obtain ⟨tl, h1, h2⟩ := (collapse_words t).2 c hc
        refine ⟨[], tl, .inl rfl, h1, ?_⟩
        rw [collapse, if_neg (by simp [hc]), h2]
        rfl
  rw [key, e]
  by_cases hw : words t = []
  · rw [hw]
    have h2 : isSpace ' ' = true := by decide
    rcases hl with rfl | rfl <;> rcases ht with rfl | rfl <;> simp [joinSp, h2]
  · obtain ⟨c, x, e1, hc⟩ := joinSp_head hw (words_mem t)
    obtain ⟨d, y, e2, hd⟩ := joinSp_last hw (words_mem t)
    have e3 : (lead ++ (joinSp (words t) ++ tail)).dropWhile isSpace = joinSp (words t) ++ tail := by
      rw [e1, List.cons_append]
      exact dropWhile_lead hl hc
    rw [e3, List.reverse_append, e2, List.reverse_append, List.reverse_singleton, List.singleton_append,
      dropWhile_lead (by rcases ht with rfl | rfl <;> simp) hd]
    simp

theorem words_append {w : List Char} (h : ∀ c ∈ w, isSpace c = false) (hne : w ≠ []) : ∀ r : List Char, r.head?.all isSpace = true →
    words (w ++ r) = w :: words r := by
  induction w with
  | nil => exact absurd rfl hne
  | cons c w ih =>
    intro r hr
    have hc := h c (List.mem_cons_self ..)
    rw [List.cons_append, words, if_neg (by simp [hc])]
    cases w with
    | nil => rw [List.nil_append, if_pos hr]
    | cons d w =>
      have hd := h d (by simp)
      rw [if_neg (by simp [hd]), ih (fun x hx => h x (List.mem_cons_of_mem _ hx)) (by simp) r hr]

theorem words_join : ∀ {ws : List (List Char)}, (∀ w ∈ ws, IsWordOf w) → words (joinSp ws) = ws
  | [], _ => rfl
  | [w], h => by
    have := words_append (h w (List.mem_cons_self ..)).2 (h w (List.mem_cons_self ..)).1 [] rfl
    rw [List.append_nil] at this
    rw [joinSp, this]
    rfl
  | w :: v :: ws, h => by
    rw [joinSp, words_append (h w (List.mem_cons_self ..)).2 (h w (List.mem_cons_self ..)).1 _ (by simp; decide), words, if_pos (by decide),
      words_join (fun y hy => h y (List.mem_cons_of_mem _ hy))]

theorem key_iff {a b : List Char} : key a = key b ↔ words a = words b := by
  rw [key_words, key_words]
  constructor
  · intro h
    rw [← words_join (words_mem a), h, words_join (words_mem b)]
  · intro h
    rw [h]

/-! #### Blocks -/

theorem unique_props : ∀ (bs : List (List (List Char))) (seen : List (List Char)),
    (unique seen bs).Sublist (bs.map fun b => subst false 0 b.flatten) ∧ ((unique seen bs).map key).Nodup ∧
    (∀ c ∈ unique seen bs, key c ∉ seen) ∧
    ∀ b ∈ bs, key (subst false 0 b.flatten) ∈ seen ∨ ∃ c ∈ unique seen bs, key c = key (subst false 0 b.flatten)
  | [], _ => by simp [unique]
  | b :: bs, seen => by
    rw [unique]
    split
    · next h =>
      obtain ⟨h1, h2, h3, h4⟩ := unique_props bs seen
      refine ⟨h1.cons _, h2, h3, fun x hx => ?_⟩
      rcases List.mem_cons.mp hx with rfl | hx
      · exact .inl (by simpa using h)
      · exact h4 x hx
    · next h =>
      obtain ⟨h1, h2, h3, h4⟩ := unique_props bs (key (subst false 0 b.flatten) :: seen)
      refine ⟨h1.cons_cons _, ?_, ?_, fun x hx => ?_⟩
      · rw [List.map_cons, List.nodup_cons]
        refine ⟨fun k => ?_, h2⟩
        obtain ⟨c, hc, e⟩ := List.mem_map.mp k
        exact h3 c hc (by rw [e]; exact List.mem_cons_self ..)
      · intro c hc
        rcases List.mem_cons.mp hc with rfl | hc
        · simpa using h
        · exact fun k => h3 c hc (List.mem_cons_of_mem _ k)
      · rcases List.mem_cons.mp hx with rfl | hx
        · exact .inr ⟨_, List.mem_cons_self .., rfl⟩
        · rcases h4 x hx with k | ⟨c, hc, e⟩
          · rcases List.mem_cons.mp k with k | k
            · exact .inr ⟨_, List.mem_cons_self .., k.symm⟩
            · exact .inl k
          · exact .inr ⟨c, List.mem_cons_of_mem _ hc, e⟩

/-- The arrays that are collected exist. -/
def DataOk (s : State) : Prop := s.data_mode = true → ∃ r b, s.lines_data = r ++ [b]

theorem store_code {s : State} (l : List Char) (hd : DataOk s) {done : List (List (List Char))} {cur : List (List Char)} (hm : s.code_mode = true)
    (hb : s.blocks_code = done ++ [cur]) :
    ∃ s', store s l = some s' ∧ s'.code_mode = true ∧ s'.blocks_code = done ++ [cur ++ [l]] ∧ DataOk s' := by
  unfold store
  cases h : s.data_mode with
  | false => exact ⟨{ s with blocks_code := done ++ [cur ++ [l]] }, by simp [h, hm, hb, appendLast_concat], hm, rfl, fun k => by
      rw [show s.data_mode = true from k] at h; cases h⟩
  | true =>
    obtain ⟨r, b, e⟩ := hd h
    exact ⟨{ s with lines_data := r ++ [b ++ [l]], blocks_code := done ++ [cur ++ [l]] }, by simp [h, hm, hb, e, appendLast_concat], hm, rfl,
      fun _ => ⟨_, _, rfl⟩⟩

theorem store_nocode {s : State} (l : List Char) (hd : DataOk s) (hm : s.code_mode = false) :
    ∃ s', store s l = some s' ∧ s'.code_mode = false ∧ s'.blocks_code = s.blocks_code ∧ DataOk s' := by
  unfold store
  cases h : s.data_mode with
  | false => exact ⟨s, by simp [hm], hm, rfl, hd⟩
  | true =>
    obtain ⟨r, b, e⟩ := hd h
    exact ⟨{ s with lines_data := r ++ [b ++ [l]] }, by simp [h, hm, e, appendLast_concat], hm, rfl, fun _ => ⟨_, _, rfl⟩⟩

/-- A line outside of the blocks. -/
theorem step_nocode {s : State} {l : List Char} (hd : DataOk s) (hm : s.code_mode = false) (hl : ¬ "fuzzer::conv: begin".toList <:+: l) :
    ∃ s', step s l = some s' ∧ s'.code_mode = false ∧ s'.blocks_code = s.blocks_code ∧ DataOk s' := by
  unfold step
  split
  · exact ⟨s, rfl, hm, rfl, hd⟩
  split
  · exact store_nocode (s := { s with lines_include := s.lines_include ++ [l] }) l hd hm
  split
  · exact ⟨_, rfl, hm, rfl, fun _ => ⟨_, _, rfl⟩⟩
  split
  · exact store_nocode (s := { s with data_mode := false }) l (fun k => by cases k) hm
  rw [hasSub_false hl]
  simp only [Bool.false_eq_true, if_false]
  split
  · exact ⟨_, rfl, rfl, rfl, hd⟩
  · exact store_nocode l hd hm

/-- A line of a block. -/
theorem step_code {s : State} {l : List Char} (hd : DataOk s) {done : List (List (List Char))} {cur : List (List Char)} (hm : s.code_mode = true)
    (hb : s.blocks_code = done ++ [cur]) (h1 : ¬ "fuzzer::conv:".toList <:+: l) :
    ∃ s', step s l = some s' ∧ s'.code_mode = true ∧ s'.blocks_code = done ++ [cur ++ if l.all isSpace then [] else [l]] ∧ DataOk s' := by
  unfold step
  split
  · exact ⟨s, rfl, hm, by simpa using hb, hd⟩
  split
  · exact store_code (s := { s with lines_include := s.lines_include ++ [l] }) l hd hm hb
  rw [sub_mark h1 (by decide), sub_mark h1 (by decide), sub_mark h1 (by decide)]
  simp only [Bool.false_eq_true, if_false]
  split
  · exact store_code (s := { s with data_mode := false }) l (fun k => by cases k) hm hb
  · exact store_code l hd hm hb

theorem not_blank {l x : List Char} (h : x <:+: l) (hx : 'f' ∈ x) : ¬ l.all isSpace = true := by
  intro k
  have := List.all_eq_true.mp k 'f' (h.subset hx)
  revert this
  decide

theorem not_close {l x : List Char} (h : x <:+: l) (hx : 'f' ∈ x) : l ≠ "};\n".toList := by
  rintro rfl
  have := h.subset hx
  revert this
  decide

theorem run_nocode : ∀ (ls : List (List Char)) {s : State}, DataOk s → s.code_mode = false → (∀ l ∈ ls, ¬ "fuzzer::conv: begin".toList <:+: l) →
    ∃ s', run s ls = some s' ∧ s'.code_mode = false ∧ s'.blocks_code = s.blocks_code ∧ DataOk s'
  | [], s, h, hc, _ => ⟨s, rfl, hc, rfl, h⟩
  | l :: ls, s, h, hc, hl => by
    obtain ⟨s1, k1, k2, k3, k4⟩ := step_nocode h hc (hl l (List.mem_cons_self ..))
    obtain ⟨s2, k5, k6, k7, k8⟩ := run_nocode ls k4 k2 (fun x hx => hl x (List.mem_cons_of_mem _ hx))
    exact ⟨s2, by rw [run, k1]; exact k5, k6, by rw [k7, k3], k8⟩

theorem run_code : ∀ (ls : List (List Char)) {s : State} {done : List (List (List Char))} {cur : List (List Char)}, DataOk s → s.code_mode = true →
    s.blocks_code = done ++ [cur] → (∀ l ∈ ls, ¬ "fuzzer::conv:".toList <:+: l) →
    ∃ s', run s ls = some s' ∧ s'.code_mode = true ∧ s'.blocks_code = done ++ [cur ++ ls.filter fun l => l.any fun c => !isSpace c] ∧ DataOk s'
  | [], s, _, _, h, hc, hb, _ => ⟨s, rfl, hc, by simpa using hb, h⟩
  | l :: ls, s, done, cur, h, hc, hb, hl => by
    obtain ⟨s1, k1, k2, k3, k4⟩ := step_code h hc hb (hl l (List.mem_cons_self ..))
    obtain ⟨s2, k5, k6, k7, k8⟩ := run_code ls k4 k2 k3 (fun x hx => hl x (List.mem_cons_of_mem _ hx))
    refine ⟨s2, by rw [run, k1]; exact k5, k6, ?_, k8⟩
    rw [k7, List.filter_cons]
    have e : (l.any fun c => !isSpace c) = !l.all isSpace := by simp [List.not_all_eq_any_not]
    rw [e]
    cases l.all isSpace <;> simp

theorem run_coded : ∀ (ms : List Coded) {s : State}, DataOk s → s.code_mode = false → (∀ m ∈ ms, m.Good) →
    ∃ s' bs, run s (ms.flatMap Coded.lines) = some s' ∧ s'.blocks_code = s.blocks_code ++ bs ∧ bs.map List.flatten = ms.map Coded.text
  | [], s, _, _, _ => ⟨s, [], rfl, (List.append_nil _).symm, rfl⟩
  | m :: ms, s, hd, hc, hm => by
    obtain ⟨g1, g2, g3, g4⟩ := hm m (List.mem_cons_self ..)
    have a1 : step s m.mark = some { s with data_mode := false, code_mode := true, blocks_code := s.blocks_code ++ [[]] } := by
      unfold step
      rw [if_neg (not_blank g1.1 (by decide)), if_neg (by rw [List.isPrefixOf_iff_prefix]; exact g1.2.2), if_neg (by rw [hasSub_iff]; exact g1.2.1),
        if_neg (not_close g1.1 (by decide)), if_pos (by rw [hasSub_iff]; exact g1.1)]
    obtain ⟨s2, b1, b2, b3, b4⟩ := run_code m.code (s := { s with data_mode := false, code_mode := true, blocks_code := s.blocks_code ++ [[]] })
      (fun k => by cases k) rfl rfl g2
    have c1 : step s2 m.stop = some { s2 with code_mode := false } := by
      unfold step
      rw [if_neg (not_blank g3.1 (by decide)), if_neg (by rw [List.isPrefixOf_iff_prefix]; exact g3.2.2.2), if_neg (by rw [hasSub_iff]; exact g3.2.1),
        if_neg (not_close g3.1 (by decide)), if_neg (by rw [hasSub_iff]; exact g3.2.2.1), if_pos (by rw [hasSub_iff]; exact g3.1)]
    obtain ⟨s4, d1, d2, d3, d4⟩ := run_nocode m.others (s := { s2 with code_mode := false }) b4 rfl g4
    obtain ⟨s5, bs, e1, e2, e3⟩ := run_coded ms d4 d2 (fun x hx => hm x (List.mem_cons_of_mem _ hx))
    refine ⟨s5, (m.code.filter fun l => l.any fun c => !isSpace c) :: bs, ?_, ?_, ?_⟩
    · rw [List.flatMap_cons, run_append, Coded.lines, List.cons_append, run, a1, Option.bind_some, run_append, b1, Option.bind_some, run, c1,
        Option.bind_some, d1, Option.bind_some]
      exact e1
    · rw [e2, d3]
      show s2.blocks_code ++ bs = _
      rw [b3, List.nil_append, List.append_assoc]
      rfl
    · rw [List.map_cons, List.map_cons, e3]
      rfl

/-- C88: the code of the fuzzer is that of the marked blocks in order, with its input in place of the arrays, without blocks that came before:
every block is there, up to whitespace, and no two of them have the same words. -/
theorem C88_code (pre : List (List Char)) (ms : List Coded) (hp : ∀ l ∈ pre, ¬ "fuzzer::conv: begin".toList <:+: l) (hm : ∀ m ∈ ms, m.Good) :
    ∃ (out : Output) (codes : List (List Char)), parseInput (pre ++ ms.flatMap Coded.lines) = some out ∧
      out.code = stripNewlines (codes.map fun code => "  {\n".toList ++ code ++ "  }\n".toList).flatten ∧
      codes.Sublist (ms.map fun m => subst false 0 m.text) ∧
      (∀ m ∈ ms, ∃ c ∈ codes, words c = words (subst false 0 m.text)) ∧ (codes.map words).Nodup := by
  obtain ⟨s1, a1, a2, a3, a4⟩ := run_nocode pre (s := {}) (fun k => by cases k) rfl hp
  obtain ⟨s2, bs, b1, b2, b3⟩ := run_coded ms a4 a2 hm
  obtain ⟨h1, h2, _, h4⟩ := unique_props bs []
  have e0 : s2.blocks_code = bs := by rw [b2, a3]; rfl
  have e1 : (bs.map fun b => subst false 0 b.flatten) = ms.map fun m => subst false 0 m.text := by
    have := congrArg (List.map (subst false 0)) b3
    rw [List.map_map, List.map_map] at this
    exact this
  refine ⟨_, unique [] bs, by rw [parseInput, run_append, a1, Option.bind_some, b1]; rfl, by rw [← e0], by rw [← e1]; exact h1, fun m hmm => ?_, ?_⟩
  · have : m.text ∈ bs.map List.flatten := by rw [b3]; exact List.mem_map_of_mem hmm
    obtain ⟨b, hb, e⟩ := List.mem_map.mp this
    rcases h4 b hb with k | ⟨c, hc, k⟩
    · cases k
    · exact ⟨c, hc, by rw [← e]; exact key_iff.mp k⟩
  · rw [List.Nodup, List.pairwise_map] at h2 ⊢
    exact h2.imp fun h k => h (key_iff.mpr k)

/-- The script does not fail, whatever the file. -/
theorem C88_total (lines : List (List Char)) : ∃ out, parseInput lines = some out := by
  have key : ∀ (ls : List (List Char)) (s : State), CodeOk s → (s.data_mode = true → ∃ r b, s.lines_data = r ++ [b]) → ∃ s', run s ls = some s' := by
    intro ls
    induction ls with
    | nil => exact fun s _ _ => ⟨s, rfl⟩
    | cons l ls ih =>
      intro s hc hd
      have hstore : ∀ t : State, CodeOk t → (t.data_mode = true → ∃ r b, t.lines_data = r ++ [b]) →
          ∃ t', store t l = some t' ∧ CodeOk t' ∧ (t'.data_mode = true → ∃ r b, t'.lines_data = r ++ [b]) := by
        intro t h1 h2
        cases hm : t.data_mode with
        | false =>
          obtain ⟨t', k1, k2, _, k4⟩ := store_out l hm h1
          exact ⟨t', k1, k4, fun k => by rw [k2] at k; cases k⟩
        | true =>
          obtain ⟨r, b, e⟩ := h2 hm
          obtain ⟨t', k1, k2, k3⟩ := store_in l ⟨hm, e⟩ h1
          exact ⟨t', k1, k3, fun _ => ⟨_, _, k2.2⟩⟩
      have : ∃ s', step s l = some s' ∧ CodeOk s' ∧ (s'.data_mode = true → ∃ r b, s'.lines_data = r ++ [b]) := by
        unfold step
        split
        · exact ⟨s, rfl, hc, hd⟩
        split
        · exact hstore { s with lines_include := s.lines_include ++ [l] } hc hd
        split
        · exact ⟨_, rfl, hc, fun _ => ⟨_, _, rfl⟩⟩
        split
        · exact hstore { s with data_mode := false } hc (fun k => by cases k)
        split
        · exact ⟨_, rfl, fun _ => ⟨_, _, rfl⟩, fun k => by cases k⟩
        split
        · exact ⟨_, rfl, fun k => (by cases k), hd⟩
        · exact hstore s hc hd
      obtain ⟨s1, k1, k2, k3⟩ := this
      obtain ⟨s2, k4⟩ := ih s1 k2 k3
      exact ⟨s2, by rw [run, k1]; exact k4⟩
  obtain ⟨s, h⟩ := key lines {} (fun k => by cases k) (fun k => by cases k)
  exact ⟨_, by rw [parseInput, h]; rfl⟩

/-! ### Arrays that the script reads wrongly -/

/-- Lines 91–98, 167, 177 and 179–186 of `/repo/test/h264_sps_parser_unittest.cc`.  Line 97 is indented, so it does not end the array, and
nothing else does before the next mark. -/
def spsTest : List (List Char) :=
  ["  // fuzzer::conv: data\n",
   "  const uint8_t buffer[] = {\n",
   "      0x64, 0x00, 0x33, 0xac, 0x72, 0x84, 0x40, 0x78,\n",
   "      0x02, 0x27, 0xe5, 0xc0, 0x44, 0x00, 0x00, 0x03,\n",
   "      0x00, 0x04, 0x00, 0x00, 0x03, 0x00, 0xf0, 0x3c,\n",
   "      0x60, 0xc6, 0x11, 0x80\n",
   "  };\n",
   "  auto sps = H264SpsParser::ParseSps(buffer, arraysize(buffer));\n",
   "  // Source: 601.264 (320x240, Baseline profile, no cropping)\n",
   "  // - Expected resolution: 320x232 (240 - 2*4 = 232 with CropUnitY=2)\n",
   "  // fuzzer::conv: data\n",
   "  const uint8_t buffer[] = {\n",
   "      0x42, 0xc0, 0x0d, 0xd9, 0x01, 0x41, 0xff, 0x96, 0x6c, 0x80, 0x00, 0x00,\n",
   "      0x03, 0x00, 0x80, 0x00, 0x00, 0x19, 0x07, 0x8a, 0x15, 0x24, 0x00\n",
   "  };\n",
   "  // fuzzer::conv: begin\n",
   "  auto sps = H264SpsParser::ParseSps(buffer, arraysize(buffer));\n",
   "  // fuzzer::conv: end\n"].map String.toList

/-- C88 fails for a unit test in /repo: the seed has two bytes more than the array, 24 and 23, from the sizes of pictures in comments. -/
theorem C88_comment : (parseInput spsTest).map (·.data) = some
    [[0x64, 0x00, 0x33, 0xac, 0x72, 0x84, 0x40, 0x78, 0x02, 0x27, 0xe5, 0xc0, 0x44, 0x00, 0x00, 0x03, 0x00, 0x04, 0x00, 0x00, 0x03, 0x00, 0xf0, 0x3c,
      0x60, 0xc6, 0x11, 0x80, 0x24, 0x23],
     [0x42, 0xc0, 0x0d, 0xd9, 0x01, 0x41, 0xff, 0x96, 0x6c, 0x80, 0x00, 0x00, 0x03, 0x00, 0x80, 0x00, 0x00, 0x19, 0x07, 0x8a, 0x15, 0x24, 0x00]] := by
  decide +kernel

/-- C88 fails for literals in upper case, in decimal, or with one digit: they are left out. -/
theorem C88_upper_case : (parseInput (["  // fuzzer::conv: data\n", "  const uint8_t buffer[] = {0x67, 0xAB, 0xC0, 12, 0x1, 0x0d};\n",
    "  // fuzzer::conv: begin\n"].map String.toList)).map (·.data) = some [[0x67, 0x0d]] := by
  decide +kernel

/-! ### Examples -/

/-- The code of the example. -/
example : (parseInput spsTest).map (·.code) =
    some "  {\n  auto sps = H264SpsParser::ParseSps(data, size);\n  }".toList := by decide +kernel

/-- A marked array as the script expects it. -/
example : Marked.Good
    { mark := "  // fuzzer::conv: data\n".toList
      array := [("  const uint8_t buffer[] = {0x67, 0xab};\n".toList, [0x67, 0xab])]
      stop := "  // fuzzer::conv: begin\n".toList
      others := ["  auto sps = H264SpsParser::ParseSps(buffer, arraysize(buffer));\n".toList] } where
  mark := ⟨(hasSub_iff _ _).mp (by decide +kernel), by rw [← List.isPrefixOf_iff_prefix]; decide +kernel⟩
  array := by
    intro x hx
    rw [List.mem_singleton] at hx
    subst hx
    refine ⟨?_, by decide +kernel, by rw [← hasSub_iff]; decide +kernel, by decide +kernel⟩
    have h0 : ∀ t : List Char, hasSub "0x".toList t = false → ¬ "0x".toList <:+: t := fun t h k => by
      rw [← hasSub_iff, h] at k; cases k
    exact .literal (t := "  const uint8_t buffer[] = {".toList) (b := 0x67) (h0 _ (by decide +kernel))
      (.literal (t := ", ".toList) (b := 0xab) (r := "};\n".toList) (h0 _ (by decide +kernel)) (.text (h0 _ (by decide +kernel))))
  stop := .inr ⟨(hasSub_iff _ _).mp (by decide +kernel), by rw [marksData, ← hasSub_iff]; decide +kernel,
    by rw [← List.isPrefixOf_iff_prefix]; decide +kernel⟩
  others := by
    intro l hl
    rw [List.mem_singleton] at hl
    subst hl
    rw [marksData, ← hasSub_iff]
    decide +kernel

/-- A marked block. -/
example : Coded.Good
    { mark := "  // fuzzer::conv: begin\n".toList
      code := ["  auto sps = H264SpsParser::ParseSps(buffer, arraysize(buffer));\n".toList]
      stop := "  // fuzzer::conv: end\n".toList
      others := ["  EXPECT_TRUE(sps != nullptr);\n".toList, "  // fuzzer::conv: data\n".toList] } := by
  refine ⟨⟨(hasSub_iff _ _).mp (by decide +kernel), by rw [marksData, ← hasSub_iff]; decide +kernel, by
    rw [← List.isPrefixOf_iff_prefix]; decide +kernel⟩, ?_, ⟨(hasSub_iff _ _).mp (by decide +kernel), by rw [marksData, ← hasSub_iff]; decide +kernel,
    by rw [← hasSub_iff]; decide +kernel, by rw [← List.isPrefixOf_iff_prefix]; decide +kernel⟩, ?_⟩
  · intro l hl
    rw [List.mem_singleton] at hl
    subst hl
    rw [← hasSub_iff]
    decide +kernel
  · intro l hl
    rcases List.mem_cons.mp hl with rfl | hl
    · rw [← hasSub_iff]; decide +kernel
    · rw [List.mem_singleton] at hl
      subst hl
      rw [← hasSub_iff]; decide +kernel

/-- Two blocks that differ in the name of the array and a line break only: one is left. -/
example : (parseInput (["  // fuzzer::conv: begin\n", "  auto sps = ParseSps(buffer, arraysize(buffer));\n", "  // fuzzer::conv: end\n",
    "  // fuzzer::conv: begin\n", "  auto sps = ParseSps(buffer2,\n", "                      arraysize(buffer2));\n", "  // fuzzer::conv: end\n"].map
    String.toList)).map (·.code) = some "  {\n  auto sps = ParseSps(data, size);\n  }".toList := by decide +kernel

end H264.Props
