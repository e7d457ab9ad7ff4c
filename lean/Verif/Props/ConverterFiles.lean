import Verif.Model.ConverterFiles
import Verif.Props.Converter
import Verif.Props.SummaryTable

/-! # C90: the files that the script for fuzzers writes -/

namespace H264.Props

open H264 H264.Conv
open H264.Summary (basename)
open H264.Script (number isDec)

/-! ### Names -/

theorem replaceGo_skip (old new : List Char) : ∀ (x y : List Char), replaceGo old new x.length (x ++ y) = replaceGo old new 0 y
  | [], y => rfl
  | c :: x, y => by rw [List.length_cons, List.cons_append, replaceGo, replaceGo_skip old new x y]

/-- The first place of the string is replaced if it begins nowhere before. -/
theorem replace_first {old new : List Char} (ho : old ≠ []) : ∀ {x : List Char} (b : List Char), ¬ old <:+: x ++ old.dropLast →
    replace old new (x ++ (old ++ b)) = x ++ (new ++ replace old new b)
  | [], b, _ => by
    obtain ⟨c, o, rfl⟩ := List.exists_cons_of_ne_nil ho
    unfold replace
    have hp : (c :: o).isPrefixOf (c :: (o ++ b)) = true := List.isPrefixOf_iff_prefix.mpr ⟨b, rfl⟩
    rw [List.nil_append, List.cons_append, replaceGo, if_pos hp]
    show new ++ replaceGo (c :: o) new o.length (o ++ b) = _
    rw [replaceGo_skip]
    rfl
  | a :: x, b, h => by
    have hp : ¬ old.isPrefixOf (a :: (x ++ (old ++ b))) = true := by
      rw [List.isPrefixOf_iff_prefix]
      intro k
      refine h (List.IsPrefix.isInfix (List.prefix_of_prefix_length_le k (l₂ := a :: x ++ old.dropLast) ?_ ?_))
      · refine (List.prefix_append_right_inj _).mpr ?_
        exact (List.dropLast_prefix old).trans (List.prefix_append ..)
      · rw [List.length_append, List.length_cons, List.length_dropLast]
        omega
    have ih := replace_first (new := new) ho (x := x) b fun k => h (k.trans (List.suffix_cons a _).isInfix)
    unfold replace at ih ⊢
    rw [List.cons_append, replaceGo, if_neg hp, ih]
    rfl

theorem number_cons_zero (g : List Char) : number 10 ('0' :: g) = number 10 g := by
  unfold number
  rw [List.foldl_cons]
  rfl

theorem twoDigits_inj {i j : Nat} (h : twoDigits i = twoDigits j) : i = j := by
  have key : ∀ i, number 10 (twoDigits i) = i := by
    intro i
    unfold twoDigits
    split
    · rw [number_cons_zero]; exact (H264.Script.number_nat i).2.1
    · exact (H264.Script.number_nat i).2.1
  rw [← key i, h, key]

theorem twoDigits_slash (i : Nat) : '/' ∉ twoDigits i := by
  have hn : ∀ v : Nat, '/' ∉ (toString v).toList := fun v k => by
    rw [← (H264.Script.number_nat v).1] at k
    exact absurd (List.all_eq_true.mp List.all_takeWhile _ k) (by decide)
  unfold twoDigits
  split
  · exact List.not_mem_cons_of_ne_of_not_mem (by decide) (hn i)
  · exact hn i

theorem join_eq (a : List Char) : ∃ x, (∀ b', join a b' = x ++ b') ∧ (x = [] ∨ ∃ y, x = y ++ ['/']) := by
  by_cases h : a = [] ∨ a.getLast? = some '/'
  · refine ⟨a, fun b' => by rw [join, if_pos h], h.imp id fun k => ?_⟩
    obtain ⟨y, hy⟩ := List.getLast?_eq_some_iff.mp k
    exact ⟨y, hy⟩
  · exact ⟨a ++ ['/'], fun b' => by rw [join, if_neg h]; simp, Or.inr ⟨a, rfl⟩⟩

theorem basename_join (a : List Char) {b : List Char} (h : '/' ∉ b) : basename (join a b) = b := by
  obtain ⟨x, e, hx⟩ := join_eq a
  rw [e]
  rcases hx with rfl | ⟨y, rfl⟩
  · exact (basename_of (a := []) h).2
  · rw [List.append_assoc, List.singleton_append]
    exact (basename_of h).1

theorem join_inj {a b b' : List Char} (h : join a b = join a b') : b = b' := by
  obtain ⟨x, e, -⟩ := join_eq a
  rw [e, e] at h
  exact List.append_cancel_left h

theorem seedPath_inj {d : List Char} {i j : Nat} (h : seedPath d i = seedPath d j) : i = j := by
  have := join_inj h
  rw [List.append_assoc, List.append_assoc] at this
  exact twoDigits_inj (List.append_cancel_right (List.append_cancel_left this))

theorem seed_basename (d : List Char) (i : Nat) : basename (seedPath d i) = "unittest.".toList ++ twoDigits i ++ ".bin".toList := by
  refine basename_join d ?_
  rw [List.mem_append, List.mem_append, not_or, not_or]
  exact ⟨⟨by decide, twoDigits_slash i⟩, by decide⟩

theorem writeSeeds_get (d : List Char) : ∀ (ds : List (List UInt8)) (k : Nat) (fs : FS) (q : List Char),
    (∀ i (hi : i < ds.length), q = seedPath d (k + i) → writeSeeds d k ds fs q = some (.bytes ds[i])) ∧
    ((∀ i < ds.length, q ≠ seedPath d (k + i)) → writeSeeds d k ds fs q = fs q)
  | [], k, fs, q => ⟨fun i hi => absurd hi (by simp), fun _ => rfl⟩
  | b :: ds, k, fs, q => by
    obtain ⟨h1, h2⟩ := writeSeeds_get d ds (k + 1) (write fs (seedPath d k) (.bytes b)) q
    constructor
    · intro i hi e
      rw [writeSeeds]
      cases i with
      | zero =>
        rw [h2, write, if_pos (by rw [e, Nat.add_zero])]
        · rfl
        · intro j hj e'
          rw [e] at e'
          have := seedPath_inj e'
          omega
      | succ i =>
        exact h1 i (by simpa using hi) (by rw [e]; congr 1; omega)
    · intro h
      have h0 := h 0 (by simp)
      rw [Nat.add_zero] at h0
      rw [writeSeeds, h2, write, if_neg h0]
      intro i hi
      have := h (i + 1) (by simpa using hi)
      rwa [show k + (i + 1) = k + 1 + i by omega] at this

/-- C90: the script run on a unit test `dir/a_unittest.cc` ends, writes the fuzzer `outdir/a_fuzzer.cc` with the code in it and one file for each
seed, with its bytes and a name of its own, leaves the unit test as it is and changes nothing else.
Missing (false, see below): seeds of former versions of the test are not removed; for other names the test itself may be lost. -/
theorem C90_files_partial {fs : FS} {dir a outdir t : List Char} (ha : '/' ∉ a) (h1 : ¬ "unittest".toList <:+: a ++ "unittes".toList)
    (h2 : ¬ ".cc".toList <:+: a ++ "fuzzer".toList ++ ".c".toList) (hp : '%' ∉ a ∧ '%' ∉ outdir)
    (ht : fs (dir ++ '/' :: (a ++ "unittest.cc".toList)) = some (.text t)) :
    ∃ out fs', parseInput (fileLines t) = some out ∧ convert (some (dir ++ '/' :: (a ++ "unittest.cc".toList))) (outdir ++ ['/']) fs = (.ok, fs') ∧
      (∃ x y, "extern \"C\" int LLVMFuzzerTestOneInput(const uint8_t *data, size_t size) {".toList <:+: y ∧
        fs' (outdir ++ '/' :: (a ++ "fuzzer.cc".toList)) = some (.text (x ++ out.include_ ++ y ++ out.code ++ "\n  return 0;\n}\n".toList))) ∧
      (∀ i (hi : i < out.data.length), fs' (outdir ++ '/' :: ("corpus/".toList ++ a ++ "fuzzer/unittest.".toList ++ twoDigits i ++ ".bin".toList)) =
        some (.bytes out.data[i])) ∧
      fs' (dir ++ '/' :: (a ++ "unittest.cc".toList)) = some (.text t) ∧
      ∀ q, q ≠ outdir ++ '/' :: (a ++ "fuzzer.cc".toList) →
        (∀ i < out.data.length, q ≠ outdir ++ '/' :: ("corpus/".toList ++ a ++ "fuzzer/unittest.".toList ++ twoDigits i ++ ".bin".toList)) → fs' q = fs q := by
  obtain ⟨out, ho⟩ := C88_total (fileLines t)
  have hn : '/' ∉ a ++ "unittest.cc".toList := by
    rw [List.mem_append, not_or]; exact ⟨ha, by decide⟩
  have hb : basename (dir ++ '/' :: (a ++ "unittest.cc".toList)) = a ++ "unittest.cc".toList := (basename_of hn).1
  have r1 : replace "unittest".toList "fuzzer".toList (a ++ "unittest.cc".toList) = a ++ "fuzzer.cc".toList := by
    have := replace_first (old := "unittest".toList) (new := "fuzzer".toList) (by decide) ".cc".toList h1
    rw [show replace "unittest".toList "fuzzer".toList ".cc".toList = ".cc".toList by decide +kernel] at this
    exact this
  have r2 : replace ".cc".toList [] (a ++ "fuzzer.cc".toList) = a ++ "fuzzer".toList := by
    have := replace_first (old := ".cc".toList) (new := []) (by decide) [] h2
    rw [show replace ".cc".toList [] [] = [] by decide +kernel, List.append_nil, List.append_nil, List.append_assoc, List.append_nil] at this
    exact this
  have j1 : ∀ x, join (outdir ++ ['/']) x = outdir ++ '/' :: x := fun x => by
    rw [join, if_pos (Or.inr List.getLast?_concat), List.append_assoc, List.singleton_append]
  have c1 : codePath (dir ++ '/' :: (a ++ "unittest.cc".toList)) (outdir ++ ['/']) = outdir ++ '/' :: (a ++ "fuzzer.cc".toList) := by
    rw [codePath, hb, r1, j1]
  have lastne : ∀ (x y : List Char), y ≠ [] → y.getLast? ≠ some '/' → ∀ z, join (x ++ y) z = x ++ y ++ '/' :: z := fun x y h0 h z => by
    rw [join, if_neg]
    rintro (k | k)
    · exact h0 (List.append_eq_nil_iff.mp k).2
    · rw [List.getLast?_append_of_ne_nil _ h0] at k
      exact h k
  have s1 : seedDir (dir ++ '/' :: (a ++ "unittest.cc".toList)) (outdir ++ ['/']) = outdir ++ '/' :: ("corpus/".toList ++ a) ++ "fuzzer".toList := by
    rw [seedDir, hb, r1, r2, j1, show outdir ++ '/' :: "corpus".toList = (outdir ++ ['/']) ++ "corpus".toList by simp,
      lastne _ _ (by decide) (by decide)]
    simp
  have s2 : ∀ i, seedPath (outdir ++ '/' :: ("corpus/".toList ++ a) ++ "fuzzer".toList) i =
      outdir ++ '/' :: ("corpus/".toList ++ a ++ "fuzzer/unittest.".toList ++ twoDigits i ++ ".bin".toList) := fun i => by
    rw [seedPath, lastne _ _ (by decide) (by decide)]
    simp
  have hper : '%' ∉ seedDir (dir ++ '/' :: (a ++ "unittest.cc".toList)) (outdir ++ ['/']) := by
    rw [s1]
    simp only [List.mem_append, List.mem_cons, not_or]
    exact ⟨⟨hp.2, by decide, by decide, hp.1⟩, by decide⟩
  have cs : ∀ i, seedPath (outdir ++ '/' :: ("corpus/".toList ++ a) ++ "fuzzer".toList) i ≠ outdir ++ '/' :: (a ++ "fuzzer.cc".toList) := by
    intro i e
    have := congrArg List.getLast? e
    rw [s2, ← List.cons_append, ← List.append_assoc, List.getLast?_append_of_ne_nil _ (by decide), ← List.cons_append, ← List.append_assoc,
      List.getLast?_append_of_ne_nil _ (by decide)] at this
    exact absurd this (by decide)
  have is : ∀ i, seedPath (outdir ++ '/' :: ("corpus/".toList ++ a) ++ "fuzzer".toList) i ≠ dir ++ '/' :: (a ++ "unittest.cc".toList) := by
    intro i e
    have := congrArg List.getLast? e
    rw [s2, ← List.cons_append, ← List.append_assoc, List.getLast?_append_of_ne_nil _ (by decide), ← List.cons_append, ← List.append_assoc,
      List.getLast?_append_of_ne_nil _ (by decide)] at this
    exact absurd this (by decide)
  have ic : dir ++ '/' :: (a ++ "unittest.cc".toList) ≠ outdir ++ '/' :: (a ++ "fuzzer.cc".toList) := by
    intro e
    have := congrArg basename e
    rw [hb, (basename_of (by rw [List.mem_append, not_or]; exact ⟨ha, by decide⟩)).1] at this
    exact absurd (List.append_cancel_left this) (by decide)
  have hconv : convert (some (dir ++ '/' :: (a ++ "unittest.cc".toList))) (outdir ++ ['/']) fs =
      (.ok, writeSeeds (outdir ++ '/' :: ("corpus/".toList ++ a) ++ "fuzzer".toList) 0 out.data
        (write fs (outdir ++ '/' :: (a ++ "fuzzer.cc".toList)) (.text (codeText (a ++ "unittest.cc".toList) out)))) := by
    unfold convert
    dsimp only
    rw [ht]
    dsimp only
    rw [ho]
    dsimp only
    rw [if_neg hper, c1, hb, s1]
    split
    · next hd => rw [hd]; rfl
    · rfl
  refine ⟨out, _, ho, hconv, ?_, ?_, ?_, ?_⟩
  · refine ⟨codeHead (a ++ "unittest.cc".toList), codeMid, (hasSub_iff _ _).mp (by decide +kernel), ?_⟩
    rw [(writeSeeds_get _ _ 0 _ _).2 fun i _ e => cs _ e.symm, write, if_pos rfl, codeText]
  · intro i hi
    rw [← s2]
    exact (writeSeeds_get _ _ 0 _ _).1 i hi (by rw [Nat.zero_add])
  · rw [(writeSeeds_get _ _ 0 _ _).2 fun i _ e => is _ e.symm, write, if_neg ic, ht]
  · intro q q1 q2
    rw [(writeSeeds_get _ _ 0 _ _).2 fun i hi e => q2 i hi (by rw [e, s2, Nat.zero_add]), write, if_neg q1]

/-- C90: the lines that are looked at are those of the file: together they are its text, and only the end of a line can be a line feed. -/
theorem C90_lines : ∀ t : List Char, (fileLines t).flatten = t ∧ (∀ l ∈ fileLines t, l ≠ [] ∧ '\n' ∉ l.dropLast) ∧
    ∀ l ∈ (fileLines t).dropLast, l.getLast? = some '\n'
  | [] => ⟨rfl, nofun, nofun⟩
  | c :: r => by
    obtain ⟨h1, h2, h3⟩ := C90_lines r
    rw [fileLines]
    by_cases hc : c = '\n'
    · rw [if_pos hc, hc]
      refine ⟨by rw [List.flatten_cons, h1]; rfl, fun l hl => ?_, fun l hl => ?_⟩
      · rcases List.mem_cons.mp hl with rfl | hl
        · exact ⟨by simp, by simp⟩
        · exact h2 l hl
      · cases hf : fileLines r with
        | nil => rw [hf] at hl; cases hl
        | cons x xs =>
          rw [hf] at hl h3
          rw [List.dropLast_cons_cons] at hl
          rcases List.mem_cons.mp hl with rfl | hl
          · rfl
          · exact h3 l hl
    · rw [if_neg hc]
      cases hf : fileLines r with
      | nil =>
        rw [hf] at h1
        refine ⟨by rw [← h1]; rfl, fun l hl => ?_, nofun⟩
        rw [List.mem_singleton.mp hl]
        exact ⟨by simp, by simp⟩
      | cons x xs =>
        rw [hf] at h1 h2 h3
        obtain ⟨k1, k2⟩ := h2 x (List.mem_cons_self ..)
        refine ⟨by rw [← h1]; simp, fun l hl => ?_, fun l hl => ?_⟩
        · rcases List.mem_cons.mp hl with rfl | hl
          · obtain ⟨y, ys, rfl⟩ := List.exists_cons_of_ne_nil k1
            rw [List.dropLast_cons_cons]
            exact ⟨by simp, List.not_mem_cons_of_ne_of_not_mem (Ne.symm hc) k2⟩
          · exact h2 l (List.mem_cons_of_mem _ hl)
        · cases xs with
          | nil => cases hl
          | cons z zs =>
            rw [List.dropLast_cons_cons] at hl h3
            rcases List.mem_cons.mp hl with rfl | hl
            · obtain ⟨y, ys, rfl⟩ := List.exists_cons_of_ne_nil k1
              have := h3 _ (List.mem_cons_self ..)
              rw [List.getLast?_cons_cons]
              exact this
            · exact h3 l (List.mem_cons_of_mem _ hl)

/-- C90: which runs end without an exception. -/
theorem C90_ends (infile : Option (List Char)) (outdir : List Char) (fs : FS) :
    (convert infile outdir fs).1 = .ok ↔ ∃ p t out, infile = some p ∧ fs p = some (.text t) ∧ parseInput (fileLines t) = some out ∧
      (out.data = [] ∨ '%' ∉ seedDir p outdir) := by
  unfold convert
  cases infile with
  | none => exact ⟨nofun, nofun⟩
  | some p =>
    dsimp only
    cases hf : fs p with
    | none =>
      refine ⟨nofun, ?_⟩
      rintro ⟨p', t, out, e, h, -⟩
      cases e
      rw [hf] at h
      cases h
    | some c =>
      cases c with
      | bytes b =>
        refine ⟨nofun, ?_⟩
        rintro ⟨p', t, out, e, h, -⟩
        cases e
        rw [hf] at h
        cases h
      | text t =>
        obtain ⟨out, ho⟩ := C88_total (fileLines t)
        dsimp only
        rw [ho]
        dsimp only
        have : (∃ p' t' out', some p = some p' ∧ fs p' = some (.text t') ∧ parseInput (fileLines t') = some out' ∧
            (out'.data = [] ∨ '%' ∉ seedDir p' outdir)) ↔ (out.data = [] ∨ '%' ∉ seedDir p outdir) := by
          constructor
          · rintro ⟨p', t', out', e, h, k, l⟩
            cases e
            rw [hf] at h
            cases h
            rw [ho] at k
            cases k
            exact l
          · exact fun h => ⟨p, t, out, rfl, hf, ho, h⟩
        rw [this]
        by_cases hd : out.data = []
        · rw [if_pos hd]
          exact ⟨fun _ => Or.inl hd, fun _ => rfl⟩
        · rw [if_neg hd]
          by_cases hp : '%' ∈ seedDir p outdir
          · rw [if_pos hp]
            exact ⟨nofun, fun h => (h.elim hd (absurd hp)).elim⟩
          · rw [if_neg hp]
            exact ⟨fun _ => Or.inr hp, fun _ => rfl⟩

theorem replace_none {old new : List Char} : ∀ {x : List Char}, ¬ old <:+: x → replace old new x = x
  | [], _ => rfl
  | a :: x, h => by
    have hp : ¬ old.isPrefixOf (a :: x) = true := by
      rw [List.isPrefixOf_iff_prefix]
      exact fun k => h k.isInfix
    have ih := replace_none (old := old) (new := new) (x := x) fun k => h (k.trans (List.suffix_cons a _).isInfix)
    unfold replace at ih ⊢
    rw [replaceGo, if_neg hp, ih]

/-- C90 fails for a test whose name has no `unittest` in it, if the fuzzers are to be written where the test is: the fuzzer is written over
the test. -/
theorem C90_overwritten {fs : FS} {dir a t : List Char} (ha : '/' ∉ a) (h1 : ¬ "unittest".toList <:+: a) (h2 : a.getLast? = some 'c')
    (ht : fs (dir ++ '/' :: a) = some (.text t)) :
    ∃ out, parseInput (fileLines t) = some out ∧
      (convert (some (dir ++ '/' :: a)) (dir ++ ['/']) fs).2 (dir ++ '/' :: a) = some (.text (codeText a out)) := by
  obtain ⟨out, ho⟩ := C88_total (fileLines t)
  refine ⟨out, ho, ?_⟩
  have hb : basename (dir ++ '/' :: a) = a := (basename_of ha).1
  have c1 : codePath (dir ++ '/' :: a) (dir ++ ['/']) = dir ++ '/' :: a := by
    rw [codePath, hb, replace_none h1, join, if_pos (Or.inr List.getLast?_concat), List.append_assoc, List.singleton_append]
  have is : ∀ d i, dir ++ '/' :: a ≠ seedPath d i := by
    intro d i e
    have := congrArg List.getLast? (congrArg basename e)
    rw [hb, seed_basename, h2, List.getLast?_append_of_ne_nil _ (by decide)] at this
    exact absurd this (by decide)
  unfold convert
  dsimp only
  rw [ht]
  dsimp only
  rw [ho]
  dsimp only
  rw [c1, hb]
  split
  · exact if_pos rfl
  · split
    · exact if_pos rfl
    · dsimp only
      rw [(writeSeeds_get _ _ 0 _ _).2 fun i _ => is _ _]
      exact if_pos rfl

/-- C90 fails for seeds of former versions of a test: if the test is edited and has fewer arrays, the files of the others stay. -/
theorem C90_stale {fs fs1 fs2 : FS} {dir a outdir t1 t2 : List Char} {out1 out2 : Output} (ha : '/' ∉ a)
    (h1 : ¬ "unittest".toList <:+: a ++ "unittes".toList) (h2 : ¬ ".cc".toList <:+: a ++ "fuzzer".toList ++ ".c".toList)
    (hp : '%' ∉ a ∧ '%' ∉ outdir) (ht : fs (dir ++ '/' :: (a ++ "unittest.cc".toList)) = some (.text t1))
    (ho1 : parseInput (fileLines t1) = some out1) (ho2 : parseInput (fileLines t2) = some out2)
    (hc1 : convert (some (dir ++ '/' :: (a ++ "unittest.cc".toList))) (outdir ++ ['/']) fs = (.ok, fs1))
    (hc2 : convert (some (dir ++ '/' :: (a ++ "unittest.cc".toList))) (outdir ++ ['/'])
      (write fs1 (dir ++ '/' :: (a ++ "unittest.cc".toList)) (.text t2)) = (.ok, fs2))
    {i : Nat} (hi : i < out1.data.length) (hi2 : out2.data.length ≤ i) :
    fs2 (outdir ++ '/' :: ("corpus/".toList ++ a ++ "fuzzer/unittest.".toList ++ twoDigits i ++ ".bin".toList)) = some (.bytes out1.data[i]) := by
  obtain ⟨o1, f1, a1, a2, -, a4, -⟩ := C90_files_partial (fs := fs) ha h1 h2 hp ht
  obtain ⟨o2, f2, b1, b2, -, -, -, b6⟩ := C90_files_partial
    (fs := write fs1 (dir ++ '/' :: (a ++ "unittest.cc".toList)) (.text t2)) ha h1 h2 hp (if_pos rfl)
  rw [ho1] at a1
  cases a1
  rw [ho2] at b1
  cases b1
  rw [hc1] at a2
  cases a2
  rw [hc2] at b2
  cases b2
  have last : ∀ x y : List Char, y ≠ [] → (outdir ++ '/' :: (x ++ y)).getLast? = y.getLast? := fun x y hy => by
    rw [← List.cons_append, ← List.append_assoc, List.getLast?_append_of_ne_nil _ hy]
  have last' : ∀ x y : List Char, y ≠ [] → (dir ++ '/' :: (x ++ y)).getLast? = y.getLast? := fun x y hy => by
    rw [← List.cons_append, ← List.append_assoc, List.getLast?_append_of_ne_nil _ hy]
  rw [b6]
  · rw [write, if_neg]
    · exact a4 i hi
    · intro e
      have := congrArg List.getLast? e
      rw [last _ _ (by decide), last' _ _ (by decide)] at this
      exact absurd this (by decide)
  · intro e
    have := congrArg List.getLast? e
    rw [last _ _ (by decide), last _ _ (by decide)] at this
    exact absurd this (by decide)
  · intro j hj e
    have := (List.cons.inj (List.append_cancel_left e)).2
    have := twoDigits_inj (List.append_cancel_left (List.append_cancel_right this))
    omega

/-! ### Examples -/

/-- A unit test with two arrays, and a later version with one. -/
def twoArrays : List Char :=
  "// fuzzer::conv: data\nconst uint8_t buffer[] = {0x67, 0xab};\n};\n// fuzzer::conv: data\nconst uint8_t buffer2[] = {0x68};\n};\n".toList
def oneArray : List Char := "// fuzzer::conv: data\nconst uint8_t buffer[] = {0x67, 0xab};\n};\n".toList

theorem twoArrays_seeds : (parseInput (fileLines twoArrays)).map (·.data) = some [[0x67, 0xab], [0x68]] ∧
    (parseInput (fileLines oneArray)).map (·.data) = some [[0x67, 0xab]] := by
  constructor <;> decide +kernel

def convFS : FS := fun p => if p = "test/h264_sps_parser_unittest.cc".toList then some (.text twoArrays) else none

theorem convNames : '/' ∉ "h264_sps_parser_".toList ∧ ¬ "unittest".toList <:+: "h264_sps_parser_".toList ++ "unittes".toList ∧
    ¬ ".cc".toList <:+: "h264_sps_parser_".toList ++ "fuzzer".toList ++ ".c".toList ∧ '%' ∉ "h264_sps_parser_".toList ∧ '%' ∉ "fuzz".toList := by
  refine ⟨by decide +kernel, ?_, ?_, by decide +kernel, by decide +kernel⟩
  · rw [← hasSub_iff]; decide +kernel
  · rw [← hasSub_iff]; decide +kernel

/-- The hypotheses of C90_files_partial, and the two seeds in their files. -/
example : ∃ fs', convert (some "test/h264_sps_parser_unittest.cc".toList) "fuzz/".toList convFS = (.ok, fs') ∧
    fs' "fuzz/corpus/h264_sps_parser_fuzzer/unittest.01.bin".toList = some (.bytes [0x68]) := by
  obtain ⟨n1, n2, n3, n4, n5⟩ := convNames
  obtain ⟨out, fs', h1, h2, -, h4, -⟩ := C90_files_partial (fs := convFS) (dir := "test".toList) (outdir := "fuzz".toList) (t := twoArrays) n1 n2 n3
    ⟨n4, n5⟩ (if_pos rfl)
  have hd : out.data = [[0x67, 0xab], [0x68]] := by
    have := twoArrays_seeds.1
    rw [h1] at this
    exact Option.some.inj this
  refine ⟨fs', h2, ?_⟩
  have := h4 1 (by rw [hd]; decide)
  simp only [hd] at this
  exact this

/-- C90_overwritten for a test that is called `sps.cc`. -/
example : ((convert (some "test/sps.cc".toList) "test/".toList fun p => if p = "test/sps.cc".toList then some (.text oneArray) else none).2
    "test/sps.cc".toList).map (fun c => decide (c = .text oneArray)) = some false := by
  decide +kernel

/-- C90_stale for the two versions. -/
example : ((convert (some "test/h264_sps_parser_unittest.cc".toList) "fuzz/".toList
    (write (convert (some "test/h264_sps_parser_unittest.cc".toList) "fuzz/".toList convFS).2 "test/h264_sps_parser_unittest.cc".toList (.text oneArray))).2
    "fuzz/corpus/h264_sps_parser_fuzzer/unittest.01.bin".toList) = some (.bytes [0x68]) := by
  decide +kernel

end H264.Props
