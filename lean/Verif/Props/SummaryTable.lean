import Verif.Model.SummaryTable
import Verif.Spec.SummaryTable
import Verif.Props.SummaryScript

/-! # C89: the table that summarises a list of streams -/

namespace H264.Props

open H264 H264.Spec H264.Summary

/-! ### Reading what `csv` writes -/

theorem run_plain : ∀ (f : List Char), (∀ c ∈ f, c ≠ ',' ∧ c ≠ '"' ∧ c ≠ '\r' ∧ c ≠ '\n') → ∀ s : CsvReader, s.mode = .start ∨ s.mode = .plain →
    ∃ m, (m = .start ∨ m = .plain) ∧ f.foldlM csvStep s = some { s with mode := m, cell := s.cell ++ f }
  | [], _, s, hs => ⟨s.mode, hs, by simp⟩
  | c :: f, h, s, hs => by
    obtain ⟨h1, h2, h3, h4⟩ := h c (List.mem_cons_self ..)
    have e : csvStep s c = some { s with mode := .plain, cell := s.cell ++ [c] } := by
      obtain ⟨m, l, cs, w⟩ := s
      rcases hs with rfl | rfl <;> simp [csvStep, h1, h2, h3, h4]
    obtain ⟨m, hm, e'⟩ := run_plain f (fun x hx => h x (List.mem_cons_of_mem _ hx)) { s with mode := .plain, cell := s.cell ++ [c] } (Or.inr rfl)
    refine ⟨m, hm, ?_⟩
    rw [List.foldlM_cons, e, Option.bind_eq_bind, Option.bind_some, e']
    simp

theorem run_quoted : ∀ (f : List Char) (s : CsvReader), s.mode = .quoted →
    (f.flatMap (fun c => if c = '"' then ['"', '"'] else [c])).foldlM csvStep s = some { s with cell := s.cell ++ f }
  | [], s, _ => by simp
  | c :: f, s, hs => by
    rw [List.flatMap_cons, List.foldlM_append]
    have e : (if c = '"' then ['"', '"'] else [c]).foldlM csvStep s = some { s with cell := s.cell ++ [c] } := by
      obtain ⟨m, l, cs, w⟩ := s
      obtain rfl : m = .quoted := hs
      by_cases hc : c = '"'
      · rw [if_pos hc, hc]
        rfl
      · rw [if_neg hc]
        simp [csvStep, hc]
    rw [e, Option.bind_eq_bind, Option.bind_some, run_quoted f { s with cell := s.cell ++ [c] } hs]
    simp

theorem run_field (f : List Char) (s : CsvReader) (hs : s.mode = .start) (hc : s.cell = []) :
    ∃ m, (m = .start ∨ m = .plain ∨ m = .quote) ∧ (csvField f).foldlM csvStep s = some { s with mode := m, cell := f } := by
  unfold csvField
  split
  · refine ⟨.quote, Or.inr (Or.inr rfl), ?_⟩
    have e : csvStep s '"' = some { s with mode := .quoted } := by
      obtain ⟨m, l, cs, w⟩ := s
      obtain rfl : m = .start := hs
      rfl
    rw [List.foldlM_cons, e, Option.bind_eq_bind, Option.bind_some, List.foldlM_append, run_quoted f _ rfl, Option.bind_eq_bind, Option.bind_some]
    obtain ⟨m, l, cs, w⟩ := s
    obtain rfl : w = [] := hc
    rfl
  · next h =>
    obtain ⟨m, hm, e⟩ := run_plain f (fun c hc => by
      have := fun k => h (List.any_eq_true.mpr ⟨c, hc, k⟩)
      simpa [not_or, and_assoc] using this) s (Or.inl hs)
    refine ⟨m, hm.elim Or.inl fun k => Or.inr (Or.inl k), ?_⟩
    rw [e, hc, List.nil_append]

theorem step_comma {m : CsvMode} (hm : m = .start ∨ m = .plain ∨ m = .quote) (l : List (List (List Char))) (cs : List (List Char)) (w : List Char) :
    csvStep ⟨m, l, cs, w⟩ ',' = some ⟨.start, l, cs ++ [w], []⟩ := by
  rcases hm with rfl | rfl | rfl <;> rfl

theorem run_end {m : CsvMode} (hm : m = .start ∨ m = .plain ∨ m = .quote) (l : List (List (List Char))) (cs : List (List Char)) (w : List Char) :
    ['\r', '\n'].foldlM csvStep ⟨m, l, cs, w⟩ = some ⟨.start, l ++ [cs ++ [w]], [], []⟩ := by
  rcases hm with rfl | rfl | rfl <;> rfl

theorem run_line : ∀ (fs : List (List Char)), fs ≠ [] → ∀ (l : List (List (List Char))) (cs : List (List Char)),
    (csvJoin fs ++ ['\r', '\n']).foldlM csvStep ⟨.start, l, cs, []⟩ = some ⟨.start, l ++ [cs ++ fs], [], []⟩
  | [], h, _, _ => absurd rfl h
  | [f], _, l, cs => by
    obtain ⟨m, hm, e⟩ := run_field f ⟨.start, l, cs, []⟩ rfl rfl
    rw [csvJoin, List.foldlM_append, e, Option.bind_eq_bind, Option.bind_some]
    exact run_end hm l cs f
  | f :: g :: r, _, l, cs => by
    obtain ⟨m, hm, e⟩ := run_field f ⟨.start, l, cs, []⟩ rfl rfl
    rw [csvJoin, List.append_assoc, List.foldlM_append, e, Option.bind_eq_bind, Option.bind_some, List.cons_append, List.foldlM_cons,
      step_comma hm, Option.bind_eq_bind, Option.bind_some, run_line (g :: r) (by simp)]
    simp

theorem run_lines : ∀ (ls : List (List (List Char))), (∀ fs ∈ ls, fs ≠ []) → ∀ l,
    (ls.flatMap fun fs => csvJoin fs ++ ['\r', '\n']).foldlM csvStep ⟨.start, l, [], []⟩ = some ⟨.start, l ++ ls, [], []⟩
  | [], _, l => by simp
  | fs :: ls, h, l => by
    rw [List.flatMap_cons, List.foldlM_append, run_line fs (h fs (List.mem_cons_self ..)), Option.bind_eq_bind, Option.bind_some,
      run_lines ls fun x hx => h x (List.mem_cons_of_mem _ hx)]
    simp

/-- C89: whatever the names of the files and the messages of the tool contain, a reader of CSV files gets the names of the columns and, for each
row, the ten values. -/
theorem C89_text (rows : List TableRow) :
    readCsv (writeCsv rows) = some (["input_dir", "input_file", "resolution", "profile", "level", "number_of_nalus", "number_of_slice_nalus",
      "number_of_slice_header_nalus", "h264nal_status", "slice_header_status"].map String.toList :: rows.map fun r =>
      [r.input_dir, r.input_file, r.row.resolution, r.row.profile, r.row.level, (toString r.row.number_of_nalus).toList,
        (toString r.row.number_of_slice_nalus).toList, (toString r.row.number_of_slice_header_nalus).toList, r.row.h264nal_status,
        r.row.slice_header_status]) := by
  unfold readCsv writeCsv
  rw [run_lines _ (by
    intro fs hfs
    rcases List.mem_cons.mp hfs with rfl | hfs
    · simp [csvFields]
    · obtain ⟨r, -, rfl⟩ := List.mem_map.mp hfs
      simp [rowFields])]
  simp [csvFields, rowFields]

/-! ### The rows -/

/-- C89: there is one row for each path that is not a directory, in the order of the paths; the row is that of the file alone. -/
theorem C89_rows {nd : Bool} {w : World} {t : Nat} : ∀ {ps : List (List Char)} {rows : List TableRow},
    tableRows nd w t ps = .val rows ↔ List.Forall₂ (fun p r => analyzeFile nd w t p = .val r) (ps.filter fun p => !w.isdir p) rows
  | [], rows => by
    rw [tableRows, List.filter_nil, List.forall₂_nil_left_iff]
    exact ⟨fun h => (Res.val.inj h).symm, fun h => by rw [h]; rfl⟩
  | p :: ps, rows => by
    rw [tableRows]
    by_cases hd : w.isdir p = true
    · rw [if_pos hd, List.filter_cons_of_neg (by simp [hd])]
      exact C89_rows
    · rw [if_neg hd, List.filter_cons_of_pos (by simp [hd]), List.forall₂_cons_left_iff]
      constructor
      · intro h
        cases h1 : analyzeFile nd w t p with
        | bad e => rw [h1] at h; cases h
        | val r =>
          rw [h1, Res.val_bind] at h
          cases h2 : tableRows nd w t ps with
          | bad e => rw [h2] at h; cases h
          | val rs =>
            rw [h2, Res.val_bind] at h
            exact ⟨r, rs, rfl, C89_rows.mp h2, (Res.val.inj h).symm⟩
      · rintro ⟨r, rs, h1, h2, rfl⟩
        rw [h1, Res.val_bind, C89_rows.mpr h2]
        rfl

/-- C89: if no file has 4 GiB or more, there is a table. -/
theorem C89_total (nd : Bool) {w : World} (t : Nat) {ps : List (List Char)}
    (h : ∀ p ∈ ps, w.isdir p = false → ∀ data stderr, w.run p = .ran data stderr → data.length < 2 ^ 32) :
    ∃ rows, tableRows nd w t ps = .val rows := by
  induction ps with
  | nil => exact ⟨[], rfl⟩
  | cons p ps ih =>
    obtain ⟨rs, hr⟩ := ih fun q hq => h q (List.mem_cons_of_mem _ hq)
    rw [tableRows]
    by_cases hd : w.isdir p = true
    · rw [if_pos hd]
      exact ⟨rs, hr⟩
    · rw [if_neg hd]
      have : ∃ r, analyzeFile nd w t p = .val r := by
        unfold analyzeFile
        cases hp : w.run p with
        | timeout => exact ⟨_, rfl⟩
        | osError e => exact ⟨_, rfl⟩
        | ran data stderr =>
          obtain ⟨row, e⟩ := C84_total nd (h p (List.mem_cons_self ..) (by simpa using hd) data stderr hp) stderr
          rw [runRow, e]
          exact ⟨_, rfl⟩
      obtain ⟨r, e⟩ := this
      rw [e, Res.val_bind, hr]
      exact ⟨_, rfl⟩

/-- C89: a run that takes too long or cannot be started leaves a row with a status that says so, and does not end the script. -/
theorem C89_not_run {nd : Bool} {w : World} {t : Nat} {p : List Char} :
    (w.run p = .timeout → ∃ r, analyzeFile nd w t p = .val r ∧ r.row.h264nal_status = ("timeout after " ++ toString t ++ "s").toList ∧
      r.row.number_of_nalus = 0) ∧
    (∀ e, w.run p = .osError e → ∃ r, analyzeFile nd w t p = .val r ∧ r.row.h264nal_status = "could not run h264nal: ".toList ++ e ∧
      r.row.number_of_nalus = 0) ∧
    ∀ data stderr r, w.run p = .ran data stderr → (analyzeFile nd w t p = .val r ↔ analyze nd data stderr = .val r.row ∧
      r.input_dir = basename (dirname (abspath w.cwd p)) ∧ r.input_file = basename p) := by
  unfold analyzeFile
  refine ⟨fun h => ?_, fun e h => ?_, fun data stderr r h => ?_⟩
  · rw [h]; exact ⟨_, rfl, rfl, rfl⟩
  · rw [h]; exact ⟨_, rfl, rfl, rfl⟩
  · rw [h, runRow]
    cases ha : analyze nd data stderr with
    | bad e => exact ⟨nofun, nofun⟩
    | val row =>
      rw [Res.val_bind]
      obtain ⟨d, f, rw'⟩ := r
      constructor
      · intro h
        cases Res.val.inj h
        exact ⟨rfl, rfl, rfl⟩
      · rintro ⟨h1, rfl, rfl⟩
        rw [Res.val.inj h1]
        rfl

/-! ### The names -/

theorem basename_of {a l : List Char} (h : '/' ∉ l) : basename (a ++ '/' :: l) = l ∧ basename l = l := by
  have hr : ∀ c ∈ l.reverse, (decide (c ≠ '/')) = true := fun c hc => decide_eq_true fun e => h (by rw [← e]; exact List.mem_reverse.mp hc)
  unfold basename
  constructor
  · rw [List.reverse_append, List.reverse_cons, List.append_assoc, List.takeWhile_append_of_pos hr, List.singleton_append,
      List.takeWhile_cons_of_neg (by simp), List.append_nil, List.reverse_reverse]
  · have := List.takeWhile_append_of_pos (l₂ := []) hr
    rw [List.append_nil, List.takeWhile_nil, List.append_nil] at this
    rw [this, List.reverse_reverse]

theorem fromRoot_concat (cs : List (List Char)) (l : List Char) : fromRoot (cs ++ [l]) = fromRoot cs ++ '/' :: l := by
  simp [fromRoot]

theorem components_one : ∀ {c : List Char}, '/' ∉ c → components c = [c]
  | [], _ => rfl
  | a :: c, h => by
    rw [components, if_neg (fun e : a = '/' => h (by rw [e]; exact List.mem_cons_self ..)), components_one (fun k => h (List.mem_cons_of_mem _ k))]

theorem components_cons : ∀ {c : List Char} (r : List Char), '/' ∉ c → components (c ++ '/' :: r) = c :: components r
  | [], r, _ => by rw [List.nil_append, components, if_pos rfl]
  | a :: c, r, h => by
    rw [List.cons_append, components, if_neg (fun e : a = '/' => h (by rw [e]; exact List.mem_cons_self ..)),
      components_cons r (fun k => h (List.mem_cons_of_mem _ k))]

theorem components_fromRoot : ∀ {cs : List (List Char)} (c : List Char), '/' ∉ c → (∀ x ∈ cs, '/' ∉ x) → components (c ++ fromRoot cs) = c :: cs
  | [], c, hc, _ => by simpa [fromRoot] using components_one hc
  | d :: cs, c, hc, h => by
    rw [show c ++ fromRoot (d :: cs) = c ++ '/' :: (d ++ fromRoot cs) by simp [fromRoot], components_cons _ hc,
      components_fromRoot d (h d (List.mem_cons_self ..)) fun x hx => h x (List.mem_cons_of_mem _ hx)]

theorem normGo_names (b : Bool) : ∀ {cs : List (List Char)} (acc : List (List Char)), (∀ x ∈ cs, IsName x) → normGo b acc cs = acc ++ cs
  | [], acc, _ => by simp [normGo]
  | c :: cs, acc, h => by
    obtain ⟨h1, -, h3, h4⟩ := h c (List.mem_cons_self ..)
    rw [normGo, if_neg (not_or.mpr ⟨h1, h3⟩), if_pos (Or.inl h4), normGo_names b _ fun x hx => h x (List.mem_cons_of_mem _ hx)]
    simp

theorem joinSlash_fromRoot : ∀ {cs : List (List Char)}, cs ≠ [] → '/' :: joinSlash cs = fromRoot cs
  | [], h => absurd rfl h
  | [c], _ => by simp [joinSlash, fromRoot]
  | c :: d :: r, _ => by
    rw [joinSlash, ← List.cons_append, joinSlash_fromRoot (by simp)]
    simp [fromRoot]

theorem normpath_fromRoot {cs : List (List Char)} (hne : cs ≠ []) (h : ∀ x ∈ cs, IsName x) : normpath (fromRoot cs) = fromRoot cs := by
  obtain ⟨c, r, rfl⟩ := List.exists_cons_of_ne_nil hne
  obtain ⟨h1, h2, -, -⟩ := h c (List.mem_cons_self ..)
  obtain ⟨a, c', rfl⟩ := List.exists_cons_of_ne_nil h1
  have ha : a ≠ '/' := fun e => h2 (by rw [e]; exact List.mem_cons_self ..)
  have e1 : (fromRoot ((a :: c') :: r)).take 1 = ['/'] := by simp [fromRoot]
  have e2 : (fromRoot ((a :: c') :: r)).take 2 ≠ ['/', '/'] := by simp [fromRoot, ha]
  have e3 := components_fromRoot (cs := (a :: c') :: r) [] (by simp) fun x hx => (h x hx).2.1
  rw [List.nil_append] at e3
  unfold normpath
  have e5 : ¬ ((fromRoot ((a :: c') :: r)).take 2 = ['/', '/'] ∧ (fromRoot ((a :: c') :: r)).take 3 ≠ ['/', '/', '/']) := fun k => e2 k.1
  rw [if_pos e1, if_neg e5, e3]
  have e4 : normGo (decide ((1 : Nat) ≠ 0)) [] ([] :: (a :: c') :: r) = (a :: c') :: r := by
    rw [normGo, if_pos (Or.inl rfl), normGo_names _ _ h]
    rfl
  dsimp only
  rw [e4, List.replicate_one, List.singleton_append, joinSlash_fromRoot (by simp), if_neg (by simp [fromRoot])]

theorem dirname_fromRoot {cs : List (List Char)} {l : List Char} (h : ∀ x ∈ cs, IsName x) (hl : '/' ∉ l) :
    basename (dirname (fromRoot (cs ++ [l]))) = cs.getLast?.getD [] := by
  have hr : ∀ c ∈ l.reverse, (decide (c ≠ '/')) = true := fun c hc => decide_eq_true fun e => hl (by rw [← e]; exact List.mem_reverse.mp hc)
  have e1 : ((fromRoot (cs ++ [l])).reverse.dropWhile (· ≠ '/')).reverse = fromRoot cs ++ ['/'] := by
    rw [fromRoot_concat, List.reverse_append, List.reverse_cons, List.append_assoc, List.dropWhile_append_of_pos hr, List.singleton_append,
      List.dropWhile_cons_of_neg (by simp), List.reverse_cons, List.reverse_reverse]
  unfold dirname
  rw [e1]
  dsimp only
  rcases List.eq_nil_or_concat cs with rfl | ⟨ds, d, rfl⟩
  · decide
  · rw [List.concat_eq_append] at h ⊢
    obtain ⟨h1, h2, -, -⟩ := h d (List.mem_append_right _ (List.mem_singleton.mpr rfl))
    obtain ⟨x, a, rfl⟩ : ∃ x a, d = x ++ [a] := by
      rcases List.eq_nil_or_concat d with rfl | ⟨x, a, rfl⟩
      · exact absurd rfl h1
      · exact ⟨x, a, List.concat_eq_append⟩
    have ha : a ≠ '/' := fun e => h2 (by rw [e]; simp)
    have hall : ¬ ((fromRoot (ds ++ [x ++ [a]]) ++ ['/']).all (· == '/')) = true := by
      rw [fromRoot_concat]
      simp [ha]
    rw [if_neg hall]
    have e2 : (fromRoot (ds ++ [x ++ [a]]) ++ ['/']).reverse.dropWhile (· == '/') = (fromRoot (ds ++ [x ++ [a]])).reverse := by
      rw [fromRoot_concat]
      simp [ha]
    rw [e2, List.reverse_reverse, fromRoot_concat, (basename_of h2).1]
    simp

/-- C89: the names in a row are that of the file and of the directory it is in, for a path from the root and for one from the present directory. -/
theorem C89_names {nd : Bool} {w : World} {t : Nat} {ds cs : List (List Char)} {l : List Char} (hd : ds ≠ []) (hds : ∀ x ∈ ds, IsName x)
    (hcs : ∀ x ∈ cs, IsName x) (hl : IsName l) {r : TableRow} :
    (analyzeFile nd w t (fromRoot (cs ++ [l])) = .val r → r.input_file = l ∧ r.input_dir = cs.getLast?.getD []) ∧
    (w.cwd = fromRoot ds → analyzeFile nd w t ((fromRoot (cs ++ [l])).drop 1) = .val r →
      r.input_file = l ∧ r.input_dir = (ds ++ cs).getLast?.getD []) := by
  have hall : ∀ x ∈ cs ++ [l], IsName x := fun x hx => by
    rcases List.mem_append.mp hx with hx | hx
    · exact hcs x hx
    · rw [List.mem_singleton.mp hx]; exact hl
  have key : ∀ p, analyzeFile nd w t p = .val r → r.input_file = basename p ∧ r.input_dir = basename (dirname (abspath w.cwd p)) := by
    intro p h
    unfold analyzeFile at h
    cases hm : runRow nd t (w.run p) with
    | bad e => rw [hm] at h; cases h
    | val row =>
      rw [hm, Res.val_bind] at h
      cases Res.val.inj h
      exact ⟨rfl, rfl⟩
  constructor
  · intro h
    obtain ⟨h1, h2⟩ := key _ h
    refine ⟨by rw [h1, fromRoot_concat]; exact (basename_of hl.2.1).1, ?_⟩
    have e1 : (fromRoot (cs ++ [l])).take 1 = ['/'] := by cases cs <;> simp [fromRoot]
    rw [h2, abspath, if_pos e1, normpath_fromRoot (by simp) hall]
    exact dirname_fromRoot hcs hl.2.1
  · intro hw h
    obtain ⟨h1, h2⟩ := key _ h
    have hb : basename ((fromRoot (cs ++ [l])).drop 1) = l := by
      cases cs with
      | nil => simpa [fromRoot] using (basename_of (a := []) hl.2.1).2
      | cons c cs =>
        rw [List.cons_append, show (fromRoot (c :: (cs ++ [l]))).drop 1 = c ++ fromRoot (cs ++ [l]) by simp [fromRoot], fromRoot_concat,
          ← List.append_assoc]
        exact (basename_of hl.2.1).1
    refine ⟨by rw [h1, hb], ?_⟩
    have hx : ∃ c r, cs ++ [l] = c :: r := List.exists_cons_of_ne_nil (by simp)
    have e1 : ¬ ((fromRoot (cs ++ [l])).drop 1).take 1 = ['/'] := by
      obtain ⟨c, r, e⟩ := hx
      obtain ⟨k1, k2, -, -⟩ := hall c (by rw [e]; exact List.mem_cons_self ..)
      obtain ⟨a, c', rfl⟩ := List.exists_cons_of_ne_nil k1
      rw [e]
      have ha : a ≠ '/' := fun e => k2 (by rw [e]; exact List.mem_cons_self ..)
      simp [fromRoot, ha]
    have e2 : ¬ (fromRoot ds = [] ∨ (fromRoot ds).getLast? = some '/') := by
      rcases List.eq_nil_or_concat ds with rfl | ⟨es, d, rfl⟩
      · exact absurd rfl hd
      · rw [List.concat_eq_append] at hds ⊢
        obtain ⟨k1, k2, -, -⟩ := hds d (by simp)
        rw [fromRoot_concat]
        rcases List.eq_nil_or_concat d with rfl | ⟨x, a, rfl⟩
        · exact absurd rfl k1
        · rw [List.concat_eq_append] at k2 ⊢
          have ha : a ≠ '/' := fun e => k2 (by rw [e]; simp)
          rw [show fromRoot es ++ '/' :: (x ++ [a]) = (fromRoot es ++ '/' :: x) ++ [a] by simp, List.getLast?_concat]
          exact not_or.mpr ⟨by simp, fun k => ha (Option.some.inj k)⟩
    have e3 : fromRoot ds ++ '/' :: (fromRoot (cs ++ [l])).drop 1 = fromRoot ((ds ++ cs) ++ [l]) := by
      obtain ⟨c, r, e⟩ := hx
      rw [List.append_assoc, e]
      simp [fromRoot]
    rw [h2, abspath, if_neg e1, hw, if_neg e2, e3, normpath_fromRoot (by simp) fun x hx => by
      rw [List.append_assoc] at hx
      exact (List.mem_append.mp hx).elim (hds x) (hall x)]
    exact dirname_fromRoot (fun x hx => (List.mem_append.mp hx).elim (hds x) (hcs x)) hl.2.1

/-- C89: the last line says that there is nothing to look at exactly if no row says otherwise. -/
theorem C89_tally (rows : List TableRow) :
    tally rows = (rows.length, 0, 0) ↔ ∀ r ∈ rows, r.row.h264nal_status = "0".toList ∧ r.row.slice_header_status = "0".toList := by
  unfold tally
  rw [Prod.mk.injEq, Prod.mk.injEq, List.countP_eq_zero, List.countP_eq_zero]
  constructor
  · rintro ⟨-, h1, h2⟩ r hr
    have k1 : r.row.h264nal_status = "0".toList := by
      have := h1 r hr
      rwa [decide_eq_true_eq, not_not] at this
    refine ⟨k1, ?_⟩
    have := h2 r hr
    rw [decide_eq_true_eq, not_and, not_not] at this
    exact this k1
  · intro h
    refine ⟨rfl, fun r hr => ?_, fun r hr => ?_⟩
    · rw [decide_eq_true_eq, not_not]
      exact (h r hr).1
    · rw [decide_eq_true_eq, not_and, not_not]
      exact fun _ => (h r hr).2

/-! ### A run with a directory, a file that takes too long, and a stream with a slice that refers to nothing -/

def sumWorld : World where
  cwd := "/home/streams".toList
  isdir p := p = "svc".toList
  run p := if p = "svc/a,\"b\".264".toList then .timeout else .ran exOrphan []

theorem sumWorld_rows (nd : Bool) : tableRows nd sumWorld 60 ["svc".toList, "svc/a,\"b\".264".toList, "c.264".toList] = .val [
    { input_dir := "svc".toList, input_file := "a,\"b\".264".toList,
      row := { resolution := [], profile := [], level := [], number_of_nalus := 0, number_of_slice_nalus := 0, number_of_slice_header_nalus := 0,
               h264nal_status := "timeout after 60s".toList, slice_header_status := "0".toList } },
    { input_dir := "streams".toList, input_file := "c.264".toList, row := rowOrphan }] := by
  have h : analyze nd exOrphan [] = .val rowOrphan := by
    cases nd <;> exact of_row (code := 0) (by decide +kernel) (by decide +kernel) (by decide +kernel)
  rw [C89_rows, show (["svc".toList, "svc/a,\"b\".264".toList, "c.264".toList].filter fun p => !sumWorld.isdir p) =
    ["svc/a,\"b\".264".toList, "c.264".toList] by decide +kernel]
  refine .cons ?_ (.cons ?_ .nil)
  · unfold analyzeFile
    rw [show sumWorld.run "svc/a,\"b\".264".toList = .timeout by dsimp only [sumWorld]; exact if_pos rfl, runRow]
    exact congrArg Res.val (by decide +kernel)
  · unfold analyzeFile
    rw [show sumWorld.run "c.264".toList = .ran exOrphan [] by dsimp only [sumWorld]; exact if_neg (by decide +kernel), runRow, h, Res.val_bind]
    exact congrArg Res.val (by decide +kernel)

/-- The line of the file that takes too long, with its name in quotes; a reader gets the name; the last line on `stderr` counts both files. -/
example (nd : Bool) : ∃ rows, tableRows nd sumWorld 60 ["svc".toList, "svc/a,\"b\".264".toList, "c.264".toList] = .val rows ∧
    ((writeCsv rows).drop 149).take 48 = "svc,\"a,\"\"b\"\".264\",,,,0,0,0,timeout after 60s,0\r\n".toList ∧
    (readCsv (writeCsv rows)).map (fun ls => ls.map fun cs => cs.take 2) =
      some [["input_dir".toList, "input_file".toList], ["svc".toList, "a,\"b\".264".toList], ["streams".toList, "c.264".toList]] ∧
    tally rows = (2, 1, 1) :=
  ⟨_, sumWorld_rows nd, by decide +kernel, by decide +kernel, by decide +kernel⟩

/-- The names of the second file, from C89_names. -/
example (nd : Bool) {r : TableRow} (h : analyzeFile nd sumWorld 60 "svc/a.264".toList = .val r) :
    r.input_file = "a.264".toList ∧ r.input_dir = "svc".toList :=
  (C89_names (ds := ["home".toList, "streams".toList]) (cs := ["svc".toList]) (l := "a.264".toList) (by decide) (by decide +kernel)
    (by decide +kernel) (by decide +kernel)).2 (by decide +kernel) h

end H264.Props
