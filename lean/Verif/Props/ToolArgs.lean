import Verif.Spec.ToolArgs
import Verif.Props.Tool

/-
C63: the options of the command line tool, its input and its output.
-/

namespace H264.Props
open H264.Spec

theorem bind_eq_val {α β : Type} {x : Res α} {f : α → Res β} {b : β} (h : (x >>= f) = .val b) : ∃ a, x = .val a ∧ f a = .val b := by
  cases x with
  | val a => exact ⟨a, rfl, h⟩
  | bad e => cases h

/-! ### Numbers -/

theorem isSpaceC_iff (c : Char) : isSpaceC c = true ↔ isBlank c := by
  have h : ∀ d : Char, c = d ↔ c.toNat = d.toNat := fun d =>
    ⟨fun e => by rw [e], fun e => Char.toNat_inj.mp e⟩
  unfold isSpaceC isBlank
  simp only [Bool.or_eq_true, Bool.and_eq_true, decide_eq_true_eq, h]
  have : ' '.toNat = 32 ∧ '\t'.toNat = 9 ∧ '\n'.toNat = 10 ∧ '\x0b'.toNat = 11 ∧ '\x0c'.toNat = 12 ∧ '\r'.toNat = 13 := by decide
  omega

theorem skipSpace_split (s : List Char) : ∃ ws, s = ws ++ skipSpace s ∧ ∀ c ∈ ws, isBlank c := by
  induction s with
  | nil => exact ⟨[], rfl, by simp⟩
  | cons c s ih =>
    unfold skipSpace
    split
    · rename_i h
      obtain ⟨ws, h1, h2⟩ := ih
      refine ⟨c :: ws, by rw [List.cons_append, ← h1], ?_⟩
      intro x hx
      rcases List.mem_cons.mp hx with rfl | hx
      · exact (isSpaceC_iff _).mp h
      · exact h2 x hx
    · exact ⟨[], rfl, by simp⟩

theorem skipSpace_blank (ws x : List Char) (h : ∀ c ∈ ws, isBlank c) (hx : ∀ c t, x = c :: t → isSpaceC c = false) :
    skipSpace (ws ++ x) = x := by
  induction ws with
  | nil =>
    cases x with
    | nil => rfl
    | cons c t => rw [List.nil_append, skipSpace, if_neg (by rw [hx c t rfl]; simp)]
  | cons c ws ih =>
    rw [List.cons_append, skipSpace, if_pos ((isSpaceC_iff c).mpr (h c (by simp))), ih (fun d hd => h d (by simp [hd]))]

theorem spanDigits_split (s : List Char) : s = (spanDigits s).1 ++ (spanDigits s).2 ∧ ∀ c ∈ (spanDigits s).1, c.isDigit = true := by
  induction s with
  | nil => exact ⟨rfl, by simp [spanDigits]⟩
  | cons c s ih =>
    unfold spanDigits
    split
    · rename_i h
      refine ⟨by rw [List.cons_append, ← ih.1], ?_⟩
      intro x hx
      rcases List.mem_cons.mp hx with rfl | hx
      · exact h
      · exact ih.2 x hx
    · exact ⟨rfl, by simp⟩

theorem spanDigits_all (s : List Char) (h : ∀ c ∈ s, c.isDigit = true) : spanDigits s = (s, []) := by
  induction s with
  | nil => rfl
  | cons c s ih =>
    unfold spanDigits
    rw [if_pos (h c (by simp)), ih (fun d hd => h d (by simp [hd]))]

theorem digitsVal_eq (s : List Char) : digitsVal s = decimalVal s := by
  have h : ∀ (s : List Char) (v : Nat), s.foldl (fun v c => 10 * v + (c.toNat - 48)) v = v * 10 ^ s.length + decimalVal s := by
    intro s
    induction s with
    | nil => intro v; simp [decimalVal]
    | cons c s ih =>
      intro v
      rw [List.foldl_cons, ih, decimalVal, List.length_cons, Nat.pow_succ, Nat.add_mul]
      have : '0'.toNat = 48 := by decide
      rw [this]
      have e : 10 * v * 10 ^ s.length = v * (10 ^ s.length * 10) := by
        rw [Nat.mul_comm 10 v, Nat.mul_assoc, Nat.mul_comm 10]
      omega
  have := h s 0
  rw [Nat.zero_mul, Nat.zero_add] at this
  exact this

theorem digit_not_space {c : Char} (h : c.isDigit = true) : isSpaceC c = false ∧ c ≠ '-' ∧ c ≠ '+' := by
  have h' : 48 ≤ c.toNat ∧ c.toNat ≤ 57 := by
    simp only [Char.isDigit, Bool.and_eq_true, decide_eq_true_eq, ge_iff_le, UInt32.le_iff_toNat_le] at h
    exact h
  refine ⟨?_, ?_, ?_⟩
  · cases hs : isSpaceC c with
    | false => rfl
    | true =>
      have := (isSpaceC_iff c).mp hs
      rcases this with rfl | rfl | rfl | rfl | rfl | rfl <;> exact absurd h'.1 (by decide)
  · rintro rfl; exact absurd h'.1 (by decide)
  · rintro rfl; exact absurd h'.1 (by decide)

/-- `strtol` on a text that is a number. -/
theorem strtol10_number {ws sign ds : List Char} (hw : ∀ c ∈ ws, isBlank c) (hs : sign = [] ∨ sign = ['+'] ∨ sign = ['-'])
    (hd : ds ≠ []) (hdd : ∀ c ∈ ds, c.isDigit = true) :
    strtol10 (ws ++ (sign ++ ds)) =
      (let v : Int := if sign = ['-'] then -(decimalVal ds) else decimalVal ds
       if v < -(2 ^ 63) then (-(2 ^ 63), [], true) else if v > 2 ^ 63 - 1 then (2 ^ 63 - 1, [], true) else (v, [], false)) := by
  obtain ⟨d, t, rfl⟩ : ∃ d t, ds = d :: t := by
    cases ds with
    | nil => exact absurd rfl hd
    | cons d t => exact ⟨d, t, rfl⟩
  have hdig := digit_not_space (hdd d (by simp))
  have hskip : skipSpace (ws ++ (sign ++ d :: t)) = sign ++ d :: t := by
    apply skipSpace_blank _ _ hw
    intro c u e
    rcases hs with rfl | rfl | rfl
    · cases e; exact hdig.1
    · cases e; decide
    · cases e; decide
  unfold strtol10
  rw [hskip]
  rcases hs with rfl | rfl | rfl
  · have hm : splitSign (d :: t) = (false, d :: t) := by
      unfold splitSign
      split
      · rename_i e; cases e; exact absurd rfl hdig.2.1
      · rename_i e; cases e; exact absurd rfl hdig.2.2
      · rfl
    rw [List.nil_append, hm]
    dsimp only
    rw [spanDigits_all _ hdd]
    dsimp only
    rw [if_neg hd, digitsVal_eq]
    rfl
  · have hm : splitSign (['+'] ++ d :: t) = (false, d :: t) := rfl
    rw [hm]
    dsimp only
    rw [spanDigits_all _ hdd]
    dsimp only
    rw [if_neg hd, digitsVal_eq, if_neg (show ¬ (['+'] = ['-']) by decide)]
    rfl
  · have hm : splitSign (['-'] ++ d :: t) = (true, d :: t) := rfl
    rw [hm]
    dsimp only
    rw [spanDigits_all _ hdd]
    dsimp only
    rw [if_neg hd, digitsVal_eq, if_pos rfl, if_pos rfl]

/-- `strtol` reads a number, or nothing. -/
theorem strtol10_cases (s : List Char) :
    strtol10 s = (0, s, false) ∨
    ∃ ws sign ds rest, s = ws ++ (sign ++ (ds ++ rest)) ∧ (∀ c ∈ ws, isBlank c) ∧ (sign = [] ∨ sign = ['+'] ∨ sign = ['-']) ∧
      ds ≠ [] ∧ (∀ c ∈ ds, c.isDigit = true) ∧ (strtol10 s).2.1 = rest := by
  obtain ⟨ws, h1, h2⟩ := skipSpace_split s
  unfold strtol10
  generalize ht : skipSpace s = t at h1
  have hm : ∃ sign u, t = sign ++ u ∧ (sign = [] ∨ sign = ['+'] ∨ sign = ['-']) ∧
      splitSign t = (decide (sign = ['-']), u) := by
    unfold splitSign
    split
    · exact ⟨['-'], _, rfl, by simp, by simp⟩
    · exact ⟨['+'], _, rfl, by simp, by simp⟩
    · exact ⟨[], t, rfl, by simp, by simp⟩
  obtain ⟨sign, u, e, hs, hm⟩ := hm
  simp only [hm]
  obtain ⟨e2, hd⟩ := spanDigits_split u
  by_cases h0 : (spanDigits u).1 = []
  · left; simp [h0]
  · right
    refine ⟨ws, sign, (spanDigits u).1, (spanDigits u).2, ?_, h2, hs, h0, hd, ?_⟩
    · rw [← e2, ← e, ← h1]
    · rw [if_neg h0]
      generalize (if decide (sign = ['-']) = true then -(digitsVal (spanDigits u).1 : Int) else (digitsVal (spanDigits u).1 : Int)) = v
      split
      · rfl
      · split <;> rfl

/-- C63: an argument of `--nalu-length-bytes` or `--frames-per-second` is accepted with the value `v` iff it is a number of that value
below 2^31, or empty and `v` is 0. -/
theorem C63_number (s : List Char) (v : Int) : numArg s = some v ↔ ∃ n : Nat, v = n ∧ Accepted s n := by
  constructor
  · intro h
    unfold numArg at h
    rcases strtol10_cases s with hc | ⟨ws, sign, ds, rest, e, hw, hs, hd, hdd, hr⟩
    · rw [hc] at h
      dsimp only at h
      split at h
      · cases h
      · rename_i hn
        cases h
        refine ⟨0, rfl, .inr ⟨?_, rfl⟩⟩
        by_cases h0 : s = []
        · exact h0
        · exact absurd (.inr (.inl h0)) hn
    · dsimp only at h
      rw [hr] at h
      by_cases hrest : rest = []
      · subst hrest
        rw [List.append_nil] at e
        rw [e, strtol10_number hw hs hd hdd] at h
        dsimp only at h
        generalize hv : (if sign = ['-'] then -(decimalVal ds : Int) else (decimalVal ds : Int)) = w at h
        by_cases h1 : w < -(2 ^ 63)
        · rw [if_pos h1] at h; simp at h
        · rw [if_neg h1] at h
          by_cases h2 : w > 2 ^ 63 - 1
          · rw [if_pos h2] at h; simp at h
          · rw [if_neg h2] at h
            dsimp only at h
            split at h
            · cases h
            · rename_i hn
              have hvw : w = v := Option.some.inj h
              have hw0 : 0 ≤ w := by
                by_cases h3 : w < 0
                · exact absurd (.inr (.inr (.inl h3))) hn
                · omega
              have hw1 : w ≤ 2 ^ 31 - 1 := by
                by_cases h3 : w > 2 ^ 31 - 1
                · exact absurd (.inr (.inr (.inr h3))) hn
                · omega
              refine ⟨decimalVal ds, ?_, .inl ⟨⟨ws, sign, ds, e, hw, ?_, hd, hdd, rfl⟩, ?_⟩⟩
              · split at hv <;> omega
              · rcases hs with h4 | h4 | h4
                · exact .inl h4
                · exact .inr (.inl h4)
                · refine .inr (.inr ⟨h4, ?_⟩)
                  rw [if_pos h4] at hv
                  omega
              · split at hv <;> omega
      · rw [if_pos (.inr (.inl hrest))] at h
        cases h
  · rintro ⟨n, rfl, ⟨⟨ws, sign, ds, e, hw, hs, hd, hdd, hv⟩, hlt⟩ | ⟨rfl, rfl⟩⟩
    · have hs' : sign = [] ∨ sign = ['+'] ∨ sign = ['-'] := by
        rcases hs with h | h | h
        · exact .inl h
        · exact .inr (.inl h)
        · exact .inr (.inr h.1)
      have hval : (if sign = ['-'] then -(decimalVal ds : Int) else (decimalVal ds : Int)) = n := by
        rcases hs with h | h | ⟨h, h0⟩
        · rw [h, if_neg (by decide), hv]
        · rw [h, if_neg (by decide), hv]
        · rw [h, if_pos rfl, hv]; omega
      unfold numArg
      rw [e, strtol10_number hw hs' hd hdd, hval]
      dsimp only
      rw [if_neg (show ¬ ((n : Int) < -(2 ^ 63)) by omega), if_neg (show ¬ ((n : Int) > 2 ^ 63 - 1) by omega)]
      dsimp only
      rw [if_neg]
      rintro (h | h | h | h)
      · cases h
      · exact h rfl
      · omega
      · omega
    · decide +kernel

example : numArg " +25".toList = some 25 := by decide +kernel
/-- Findings: the value -1 that the usage text offers is refused; no digits at all are accepted. -/
theorem C63_documented_default_refused : numArg "-1".toList = none := by decide +kernel
theorem C63_empty_number : numArg [] = some 0 := by decide +kernel
example : numArg "25 ".toList = none ∧ numArg "2147483648".toList = none ∧ numArg "0x10".toList = none ∧
    numArg "99999999999999999999".toList = none := by decide +kernel

/-! ### Options -/

theorem lastSet_cons {α : Type} (p : Opt → Option α) (d : α) (x : Opt) (l : List Opt) :
    lastSet p d (x :: l) = lastSet p ((p x).getD d) l := by
  unfold lastSet
  rw [List.reverse_cons, List.findSome?_append]
  cases l.reverse.findSome? p with
  | some v => rfl
  | none =>
    cases hx : p x <;> simp [hx]

def dbg (l : List Opt) : Nat := (l.reverse.takeWhile (fun x => decide (x ≠ .quiet))).count .debug

theorem takeWhile_append_of_mem {α : Type} {p : α → Bool} {l : List α} (m : List α) (h : ∃ x ∈ l, p x = false) :
    (l ++ m).takeWhile p = l.takeWhile p := by
  induction l with
  | nil => obtain ⟨_, hx, _⟩ := h; cases hx
  | cons a l ih =>
    rw [List.cons_append, List.takeWhile_cons, List.takeWhile_cons]
    split
    · rename_i hp
      obtain ⟨x, hx, hpx⟩ := h
      rcases List.mem_cons.mp hx with rfl | hx
      · rw [hp] at hpx; cases hpx
      · rw [ih ⟨x, hx, hpx⟩]
    · rfl

theorem takeWhile_all {α : Type} {p : α → Bool} {l : List α} (h : ∀ x ∈ l, p x = true) : l.takeWhile p = l := by
  induction l with
  | nil => rfl
  | cons a l ih => rw [List.takeWhile_cons, if_pos (h a (by simp)), ih (fun x hx => h x (by simp [hx]))]

theorem dbg_not_quiet {l : List Opt} (h : .quiet ∉ l) : dbg l = l.count .debug := by
  unfold dbg
  rw [takeWhile_all, List.count_reverse]
  intro x hx
  have : x ≠ .quiet := by rintro rfl; exact h (List.mem_reverse.mp hx)
  simp [this]

theorem dbg_cons_quiet {l : List Opt} (x : Opt) (h : .quiet ∈ l) : dbg (x :: l) = dbg l := by
  unfold dbg
  rw [List.reverse_cons, takeWhile_append_of_mem _ ⟨.quiet, List.mem_reverse.mpr h, by simp⟩]

theorem dbg_quiet_cons {l : List Opt} (h : .quiet ∉ l) : dbg (.quiet :: l) = dbg l := by
  unfold dbg
  rw [List.reverse_cons]
  have : ∀ m : List Opt, .quiet ∉ m → (m ++ [Opt.quiet]).takeWhile (fun x => decide (x ≠ .quiet)) = m.takeWhile (fun x => decide (x ≠ .quiet)) := by
    intro m hm
    induction m with
    | nil => rfl
    | cons a m ih =>
      rw [List.cons_append, List.takeWhile_cons, List.takeWhile_cons, ih (fun hh => hm (by simp [hh]))]
  rw [this _ (fun hh => h (List.mem_reverse.mp hh))]

/-- The options in effect after `l`, starting from `o`. -/
def after (o : ArgOptions) (l : List Opt) : ArgOptions :=
  { debug := if .quiet ∈ l then dbg l else o.debug + dbg l
    args :=
      { dumpmode := lastSet setsDumpmode o.args.dumpmode l
        as_one_line := lastSet setsOneLine o.args.as_one_line l
        add_offset := lastSet setsOffset o.args.add_offset l
        add_length := lastSet setsLength o.args.add_length l
        add_parsed_length := lastSet setsParsedLength o.args.add_parsed_length l
        add_checksum := lastSet setsChecksum o.args.add_checksum l
        add_resolution := lastSet setsResolution o.args.add_resolution l
        add_contents := lastSet setsContents o.args.add_contents l
        nalu_length_bytes := lastSet setsLengthBytes o.args.nalu_length_bytes l
        frames_per_second := lastSet setsRate o.args.frames_per_second l }
    avcc_file := lastSet setsAvcc o.avcc_file l
    infile := lastSet setsInfile o.infile l
    outfile := lastSet setsOutfile o.outfile l }

theorem after_debug (d : Nat) (x : Opt) (l : List Opt) :
    (if .quiet ∈ x :: l then dbg (x :: l) else d + dbg (x :: l)) =
      if .quiet ∈ l then dbg l else (if x = .quiet then 0 else if x = .debug then d + 1 else d) + dbg l := by
  by_cases hq : .quiet ∈ l
  · rw [if_pos hq, if_pos (by simp [hq]), dbg_cons_quiet x hq]
  · rw [if_neg hq]
    by_cases hx : x = .quiet
    · subst hx
      rw [if_pos (by simp), if_pos rfl, dbg_quiet_cons hq, Nat.zero_add]
    · have hn : .quiet ∉ x :: l := by
        intro hh
        rcases List.mem_cons.mp hh with hh | hh
        · exact hx hh.symm
        · exact hq hh
      rw [if_neg hn, if_neg hx, dbg_not_quiet hn, dbg_not_quiet hq, List.count_cons]
      by_cases hd : x = .debug
      · subst hd; simp; omega
      · simp [hd]

theorem numArg_of_not_stops {s : List Char} (h : ¬ ∀ v, ¬ Accepted s v) : ∃ v, numArg s = some v := by
  obtain ⟨n, hn⟩ := Classical.not_forall.mp h
  exact ⟨n, (C63_number s n).mpr ⟨n, rfl, Classical.not_not.mp hn⟩⟩

theorem numArg_of_stops {s : List Char} (h : ∀ v, ¬ Accepted s v) : numArg s = none := by
  cases hn : numArg s with
  | none => rfl
  | some v =>
    obtain ⟨n, _, h2⟩ := (C63_number s v).mp hn
    exact absurd h2 (h n)

theorem stepArg_go {o : ArgOptions} {x : Opt} (h : ¬ Stops x) (l : List Opt) :
    ∃ o', stepArg o x = .ok o' ∧ after o' l = after o (x :: l) := by
  cases x
  case version => exact absurd trivial h
  case help => exact absurd trivial h
  case unsupported => exact absurd trivial h
  case nalu_length_bytes s =>
    obtain ⟨v, hv⟩ := numArg_of_not_stops h
    refine ⟨{ o with args := { o.args with nalu_length_bytes := v } }, by simp only [stepArg, hv], ?_⟩
    unfold after
    rw [after_debug]
    simp [lastSet_cons, setsDumpmode, setsOneLine, setsOffset, setsLength, setsParsedLength, setsChecksum,
      setsResolution, setsContents, setsLengthBytes, setsRate, setsAvcc, setsInfile, setsOutfile, hv]
  case frames_per_second s =>
    obtain ⟨v, hv⟩ := numArg_of_not_stops h
    refine ⟨{ o with args := { o.args with frames_per_second := v } }, by simp only [stepArg, hv], ?_⟩
    unfold after
    rw [after_debug]
    simp [lastSet_cons, setsDumpmode, setsOneLine, setsOffset, setsLength, setsParsedLength, setsChecksum,
      setsResolution, setsContents, setsLengthBytes, setsRate, setsAvcc, setsInfile, setsOutfile, hv]
  all_goals
    refine ⟨_, rfl, ?_⟩
    unfold after
    rw [after_debug]
    simp [lastSet_cons, setsDumpmode, setsOneLine, setsOffset, setsLength, setsParsedLength, setsChecksum,
      setsResolution, setsContents, setsLengthBytes, setsRate, setsAvcc, setsInfile, setsOutfile]

theorem stepArgs_go (l m : List Opt) (o : ArgOptions) (h : ∀ x ∈ l, ¬ Stops x) : stepArgs o (l ++ m) = stepArgs (after o l) m := by
  induction l generalizing o with
  | nil => simp [after, lastSet, dbg]
  | cons x l ih =>
    obtain ⟨o', h1, h2⟩ := stepArg_go (o := o) (h x (by simp)) l
    rw [List.cons_append, stepArgs, h1]
    dsimp only
    rw [ih o' (fun y hy => h y (by simp [hy])), h2]

/-- C63: every setting has the value that the last option for it gives; without an input file (or an avcC file) the exit status is
255. -/
theorem C63_options {l : List Opt} (h : ∀ x ∈ l, ¬ Stops x) :
    parseArgs l = if (inEffect l).infile = none ∧ (inEffect l).avcc_file = none then .error 255 else .ok (inEffect l) := by
  have e : stepArgs {} l = .ok (inEffect l) := by
    have := stepArgs_go l [] {} h
    rw [List.append_nil] at this
    rw [this]
    simp [stepArgs, after, inEffect, dbg]
  unfold parseArgs
  rw [e]

/-- C63: the first option that stops the tool determines the exit status, 0 for the version, 255 otherwise, whatever else the
command line holds. -/
theorem C63_stops {l m : List Opt} {x : Opt} (h : ∀ y ∈ l, ¬ Stops y) (hx : Stops x) :
    parseArgs (l ++ x :: m) = .error (if x = .version then 0 else 255) := by
  unfold parseArgs
  rw [stepArgs_go l _ _ h, stepArgs]
  cases x <;> first
    | (exfalso; simp [Stops] at hx; done)
    | rfl
    | (rw [stepArg, numArg_of_stops hx]; rfl)

example : inEffect [.debug, .infile "a.264".toList, .frames_per_second "25".toList, .quiet, .dump_length, .frames_per_second "50".toList,
    .debug] = { debug := 1, args := { dumpmode := .dump_length, frames_per_second := 50 }, infile := some "a.264".toList } := by
  decide +kernel

/-- The order of options for different settings does not matter. -/
theorem C63_commute {l m : List Opt} (hl : ∀ x ∈ l, ¬ Stops x) (hm : ∀ x ∈ m, ¬ Stops x) (h : inEffect l = inEffect m) (nd : Bool) (w : World) :
    toolRun nd w l = toolRun nd w m := by
  unfold toolRun
  rw [C63_options hl, C63_options hm, h]

example : inEffect [.infile "a".toList, .add_length true, .dump_length] = inEffect [.dump_length, .add_length false, .add_length true, .infile "a".toList] := by
  decide +kernel

/-! ### Input and output -/

theorem readStdinLoop_eq (chunk : Nat) (hc : 0 < chunk) : ∀ (f : Nat) (s : InStream) (buffer : List UInt8),
    (if s.failed then 0 else s.rest.length) < f →
    readStdinLoop chunk f s buffer = .val (buffer ++ if s.failed then [] else s.rest)
  | 0, s, buffer, h => absurd h (by omega)
  | f + 1, s, buffer, h => by
    obtain ⟨rest, failed⟩ := s
    unfold readStdinLoop InStream.read
    cases failed with
    | true => simp
    | false =>
      simp only [Bool.false_eq_true, if_false] at h ⊢
      by_cases h0 : rest = []
      · subst h0; simp
      · have hl : 0 < rest.length := List.length_pos_iff.mpr h0
        rw [if_neg (by rw [List.length_take]; omega), readStdinLoop_eq chunk hc f]
        · by_cases hd : rest.length < chunk
          · simp [hd, List.take_of_length_le (Nat.le_of_lt hd)]
          · simp [hd, List.append_assoc, List.take_append_drop]
        · by_cases hd : rest.length < chunk
          · simp [hd]; omega
          · simp only [hd, decide_false, Bool.false_eq_true, if_false, List.length_drop]; omega

/-- C63: standard input is read completely, whatever its length; reading it ends. -/
theorem C63_stdin (stdin : List UInt8) : readStdinToBuffer stdin = .val stdin := by
  unfold readStdinToBuffer
  rw [readStdinLoop_eq 4096 (by decide) _ _ _ (by simp)]
  simp

theorem readFile_total (w : World) (name : List Char) : ∃ x, readFile w name = .val x := by
  unfold readFile
  rw [C63_stdin, Res.val_bind]
  split
  · exact ⟨_, rfl⟩
  · split
    · exact ⟨_, rfl⟩
    · split <;> exact ⟨_, rfl⟩

/-- C63: what `ReadFile` returns is the input that the name stands for, and it fails if there is none. -/
theorem C63_input (w : World) (name : List Char) (data : List UInt8) : readFile w name = .val (some data) ↔ IsInput w name data := by
  unfold readFile IsInput
  rw [C63_stdin, Res.val_bind, Res.pure_eq]
  by_cases hn : name = ['-']
  · rw [if_pos hn]
    constructor
    · intro h; cases h; exact .inl ⟨hn, rfl⟩
    · rintro (⟨_, h⟩ | ⟨h, _⟩)
      · rw [h]
      · exact absurd hn h
  · rw [if_neg hn]
    constructor
    · intro h
      right
      refine ⟨hn, ?_⟩
      split at h
      · cases h
      · rename_i f hf
        split at h
        · cases h
        · rename_i hs
          simp only [Res.pure_eq, Res.val.injEq] at h
          split at h
          · cases h
          · rename_i hl
            cases h
            obtain ⟨size, bytes⟩ := f
            dsimp only at hs hl hf ⊢
            refine ⟨?_, bytes.drop size.toNat, ?_⟩
            · intro e; rw [e] at hl; simp at hl; omega
            · rw [hf, List.take_append_drop]
              congr 2
              omega
    · rintro (⟨h, _⟩ | ⟨_, h1, more, h2⟩)
      · exact absurd h hn
      · have : 0 < data.length := List.length_pos_iff.mpr h1
        rw [h2]
        simp only [Int.toNat_natCast, List.take_left', ne_eq, not_true_eq_false, if_false]
        rw [if_neg (by omega), Res.pure_eq]

theorem outFails_iff (w : World) (o : ArgOptions) : outFails w o = true ↔ ¬ Writable w o.outfile := by
  unfold outFails Writable
  cases ho : o.outfile with
  | none => simp
  | some name => simp

theorem toolExit_range (m c : Nat) : toolExit m c = 0 ∨ toolExit m c = 1 ∨ toolExit m c = 2 := by
  unfold toolExit
  split
  · simp
  · split <;> simp

theorem toolMain_status {nd : Bool} {a : ToolArgs} {data : List UInt8} {out : List Char} {code : Int}
    (h : toolMain nd a data = .val (out, code)) : code = 0 ∨ code = 1 ∨ code = 2 := by
  unfold toolMain at h
  obtain ⟨⟨bs, c⟩, _, h⟩ := bind_eq_val h
  obtain ⟨o, _, h⟩ := bind_eq_val h
  obtain ⟨m, _, h⟩ := bind_eq_val h
  cases h
  exact toolExit_range m c

/-- C63: with an input that can be read and an output that can be written, the tool does what `toolMain` (C57, C58, C59) does with
the options in effect; the output goes to the output file, or to standard output if there is none or its name is `-`. -/
theorem C63_run {nd : Bool} {w : World} {l : List Opt} (h : ∀ x ∈ l, ¬ Stops x) {name : List Char} (hi : (inEffect l).infile = some name)
    {data : List UInt8} (hd : IsInput w name data) (hw : Writable w (inEffect l).outfile) (hq : (inEffect l).debug ≤ 1) (r : RunResult) :
    toolRun nd w l = .val r ↔ ∃ out code, toolMain nd (inEffect l).args data = .val (out, code) ∧
      r = match (inEffect l).outfile with
        | none => { stdout := out, outfile := none, status := code }
        | some file => if file = ['-'] then { stdout := out, outfile := none, status := code }
          else { stdout := [], outfile := some (file, out), status := code } := by
  have hdbg : debugText (inEffect l) = [] := by
    unfold debugText; rw [if_neg (by omega)]
  have hf : outFails w (inEffect l) = false := by
    cases hf : outFails w (inEffect l) with
    | false => rfl
    | true => exact absurd hw ((outFails_iff w _).mp hf)
  unfold toolRun
  rw [C63_options h, if_neg (by rw [hi]; simp)]
  dsimp only
  rw [hi]
  dsimp only
  rw [(C63_input w name data).mpr hd, Res.val_bind]
  dsimp only
  rw [hf]
  simp only [Bool.false_eq_true, if_false]
  generalize toolMain nd (inEffect l).args data = x
  have hdel : ∀ out code, deliver (inEffect l) out code = match (inEffect l).outfile with
        | none => { stdout := out, outfile := none, status := code }
        | some file => if file = ['-'] then { stdout := out, outfile := none, status := code }
          else { stdout := [], outfile := some (file, out), status := code } := by
    intro out code
    unfold deliver
    rw [hdbg]
    cases (inEffect l).outfile <;> rfl
  constructor
  · intro hx
    obtain ⟨⟨out, code⟩, h1, h2⟩ := bind_eq_val hx
    cases h2
    exact ⟨out, code, h1, hdel out code⟩
  · rintro ⟨out, code, h1, rfl⟩
    rw [h1, Res.val_bind]
    dsimp only
    rw [Res.pure_eq, hdel]

/-- The first option that stops the tool. -/
theorem first_stop (l : List Opt) (h : ¬ ∀ x ∈ l, ¬ Stops x) : ∃ pre x post, l = pre ++ x :: post ∧ (∀ y ∈ pre, ¬ Stops y) ∧ Stops x := by
  induction l with
  | nil => exact absurd (by simp) h
  | cons a l ih =>
    by_cases ha : Stops a
    · exact ⟨[], a, l, rfl, by simp, ha⟩
    · obtain ⟨pre, x, post, rfl, h2, h3⟩ := ih (fun hh => h (by
        intro x hx
        rcases List.mem_cons.mp hx with rfl | hx
        · exact ha
        · exact hh x hx))
      refine ⟨a :: pre, x, post, rfl, ?_, h3⟩
      intro y hy
      rcases List.mem_cons.mp hy with rfl | hy
      · exact ha
      · exact h2 y hy

theorem first_stop_unique {pre pre' post post' : List Opt} {x x' : Opt} (e : pre ++ x :: post = pre' ++ x' :: post')
    (h : ∀ y ∈ pre, ¬ Stops y) (h' : ∀ y ∈ pre', ¬ Stops y) (hx : Stops x) (hx' : Stops x') : x = x' := by
  induction pre generalizing pre' with
  | nil =>
    cases pre' with
    | nil => cases e; rfl
    | cons a t => cases e; exact absurd hx (h' _ (by simp))
  | cons a t ih =>
    cases pre' with
    | nil => cases e; exact absurd hx' (h _ (by simp))
    | cons b u =>
      rw [List.cons_append, List.cons_append] at e
      injection e with e1 e2
      exact ih e2 (fun y hy => h y (by simp [hy])) (fun y hy => h' y (by simp [hy]))

/-- C63: the exit status is 0, 1, 2 or 255, and it is 255 exactly when the tool refuses to work. -/
theorem C63_status {nd : Bool} {w : World} {l : List Opt} {r : RunResult} (h : toolRun nd w l = .val r) :
    (r.status = 0 ∨ r.status = 1 ∨ r.status = 2 ∨ r.status = 255) ∧ (r.status = 255 ↔ Refused w l) := by
  by_cases hs : ∀ x ∈ l, ¬ Stops x
  · have hno : ¬ ∃ pre x post, l = pre ++ x :: post ∧ (∀ y ∈ pre, ¬ Stops y) ∧ Stops x ∧ x ≠ .version := by
      rintro ⟨pre, x, post, rfl, _, h2, _⟩
      exact hs x (by simp) h2
    have hR : Refused w l ↔ (((inEffect l).infile = none ∧ (inEffect l).avcc_file = none) ∨
     (∃ name, (inEffect l).infile = some name ∧ ∀ data, ¬ IsInput w name data) ∨
     ¬ Writable w (inEffect l).outfile) := by
      unfold Refused
      constructor
      · rintro (h | h)
        · exact absurd h hno
        · exact h.2
      · intro h; exact .inr ⟨hs, h⟩
    rw [hR, ← outFails_iff]
    have hdel : ∀ out code, (deliver (inEffect l) out code).status = code := by
      intro out code
      unfold deliver
      split
      · rfl
      · split <;> rfl
    unfold toolRun at h
    rw [C63_options hs] at h
    by_cases hin : (inEffect l).infile = none ∧ (inEffect l).avcc_file = none
    · rw [if_pos hin] at h
      cases h
      exact ⟨by simp, by simp [hin]⟩
    · rw [if_neg hin] at h
      dsimp only at h
      cases hi : (inEffect l).infile with
      | none =>
        rw [hi] at h hin
        dsimp only at h
        have ha : (inEffect l).avcc_file ≠ none := fun e => hin ⟨rfl, e⟩
        cases hf : outFails w (inEffect l) with
        | true => rw [hf] at h; cases h; simp
        | false => rw [hf] at h; cases h; simp [hdel, ha]
      | some name =>
        rw [hi] at h
        dsimp only at h
        obtain ⟨x, hr⟩ := readFile_total w name
        cases x with
        | none =>
          rw [hr, Res.val_bind] at h
          cases h
          refine ⟨by simp, fun _ => ?_, fun _ => rfl⟩
          exact .inr (.inl ⟨name, rfl, fun data hd => by rw [(C63_input w name data).mpr hd] at hr; cases hr⟩)
        | some data =>
          rw [hr, Res.val_bind] at h
          dsimp only at h
          have hd := (C63_input w name data).mp hr
          cases hf : outFails w (inEffect l) with
          | true =>
            rw [hf, if_pos rfl] at h
            obtain ⟨_, _, h⟩ := bind_eq_val h
            cases h
            simp
          | false =>
            rw [hf, if_neg (by simp)] at h
            obtain ⟨⟨out, code⟩, h1, h⟩ := bind_eq_val h
            cases h
            have := toolMain_status h1
            rw [hdel]
            refine ⟨by rcases this with h | h | h <;> simp [h], ?_⟩
            constructor
            · intro e; rcases this with h | h | h <;> rw [h] at e <;> cases e
            · rintro (⟨h, _⟩ | ⟨n, h, hh⟩ | h)
              · cases h
              · cases h; exact absurd hd (hh data)
              · cases h
  · obtain ⟨pre, x, post, rfl, h1, h2⟩ := first_stop l hs
    unfold toolRun at h
    rw [C63_stops h1 h2] at h
    cases h
    have hR : Refused w (pre ++ x :: post) ↔ x ≠ .version := by
      unfold Refused
      constructor
      · rintro (⟨pre', x', post', e, h3, h4, h5⟩ | ⟨h3, _⟩)
        · rw [first_stop_unique e h1 h3 h2 h4]; exact h5
        · exact absurd h3 hs
      · intro hx; exact .inl ⟨pre, x, post, rfl, h1, h2, hx⟩
    rw [hR]
    by_cases hx : x = .version
    · simp [hx]
    · simp [hx]

/-- C63: with an input below 2 GiB the tool returns, unless the product of bits and frame rate may exceed 64 bits or the size fields
have more than 7 bytes. -/
theorem C63_returns {nd : Bool} {w : World} {l : List Opt} (hn : (inEffect l).args.nalu_length_bytes ≤ 7)
    (hd : ∀ name data, (inEffect l).infile = some name → IsInput w name data →
      data.length < 2 ^ 31 ∧ 0 ≤ (inEffect l).args.frames_per_second ∧
        8 * (data.length : Int) * (inEffect l).args.frames_per_second < 2 ^ 63) : ∃ r, toolRun nd w l = .val r := by
  by_cases hs : ∀ x ∈ l, ¬ Stops x
  · unfold toolRun
    rw [C63_options hs]
    by_cases hin : (inEffect l).infile = none ∧ (inEffect l).avcc_file = none
    · rw [if_pos hin]; exact ⟨_, rfl⟩
    · rw [if_neg hin]
      dsimp only
      cases hi : (inEffect l).infile with
      | none => exact ⟨_, rfl⟩
      | some name =>
        dsimp only
        obtain ⟨x, hr⟩ := readFile_total w name
        rw [hr, Res.val_bind]
        cases x with
        | none => exact ⟨_, rfl⟩
        | some data =>
          dsimp only
          obtain ⟨h1, h2, h3⟩ := hd name data hi ((C63_input w name data).mp hr)
          have hm : ∃ x, toolMain nd (inEffect l).args data = .val x := by
            by_cases hn' : (inEffect l).args.nalu_length_bytes < 0
            · cases hdm : (inEffect l).args.dumpmode with
              | dump_all =>
                obtain ⟨_, _, _, _, _, _, _, h⟩ := C58_annexB_partial (nd := nd) hn' hdm (data := data) (by omega)
                exact ⟨_, h⟩
              | dump_length =>
                obtain ⟨bs, _, _, _, _, h⟩ := C59_table_partial (nd := nd) hn' hdm h1 h2 h3
                obtain ⟨b, f, hf⟩ := frames_exist bs.nal_units
                exact ⟨_, h b f hf⟩
            · cases hdm : (inEffect l).args.dumpmode with
              | dump_all =>
                obtain ⟨_, _, _, _, _, _, _, h⟩ := C58_length_partial (nd := nd) (by omega) hn hdm (data := data) (by omega)
                exact ⟨_, h⟩
              | dump_length =>
                by_cases hz : (inEffect l).args.nalu_length_bytes = 0
                · obtain ⟨_, _, _, _, _, h⟩ := C59_no_sizes (nd := nd) hz hdm h1
                  exact ⟨_, h⟩
                · obtain ⟨bs, _, _, _, _, h⟩ := C59_length_partial (nd := nd) (by omega) hn hdm h1 h2 h3
                  obtain ⟨b, f, hf⟩ := frames_exist bs.nal_units
                  exact ⟨_, h b f hf⟩
          obtain ⟨⟨out, code⟩, hm⟩ := hm
          split
          · unfold toolMain at hm
            obtain ⟨x, hx, _⟩ := bind_eq_val hm
            rw [hx]
            exact ⟨_, rfl⟩
          · rw [hm]
            exact ⟨_, rfl⟩
  · obtain ⟨pre, x, post, rfl, h1, h2⟩ := first_stop l hs
    unfold toolRun
    rw [C63_stops h1 h2]
    exact ⟨_, rfl⟩

/-- Without `--nalu-length-bytes` the stream is an Annex B stream, and the frame rate is never negative. -/
theorem C63_defaults {l : List Opt} (hn : ∀ s, .nalu_length_bytes s ∉ l) : (inEffect l).args.nalu_length_bytes = -1 := by
  have h : ∀ (m : List Opt), (∀ s, Opt.nalu_length_bytes s ∉ m) → m.findSome? setsLengthBytes = none := by
    intro m hm
    rw [List.findSome?_eq_none_iff]
    intro x hx
    cases x <;> first | rfl | exact absurd hx (hm _)
  show lastSet setsLengthBytes (-1) l = -1
  unfold lastSet
  rw [h _ (fun s hs => hn s (List.mem_reverse.mp hs))]
  rfl

theorem C63_rate_nonneg (l : List Opt) : 0 ≤ (inEffect l).args.frames_per_second ∧ (inEffect l).args.frames_per_second < 2 ^ 31 := by
  show 0 ≤ lastSet setsRate 30 l ∧ lastSet setsRate 30 l < 2 ^ 31
  unfold lastSet
  cases h : l.reverse.findSome? setsRate with
  | none => simp
  | some v =>
    obtain ⟨x, -, hx⟩ := List.exists_of_findSome?_eq_some h
    cases x
    case frames_per_second s =>
      obtain ⟨n, rfl, ⟨_, h2⟩ | ⟨_, h2⟩⟩ := (C63_number s v).mp hx
      · simp; omega
      · simp [h2]
    all_goals cases hx

/-- Whatever the frame rate, the tool returns for Annex B streams of up to 512 MiB. -/
theorem C63_returns_512M {nd : Bool} {w : World} {l : List Opt} (hn : ∀ s, .nalu_length_bytes s ∉ l)
    (hd : ∀ name data, (inEffect l).infile = some name → IsInput w name data → data.length ≤ 2 ^ 29) : ∃ r, toolRun nd w l = .val r := by
  refine C63_returns (by rw [C63_defaults hn]; decide) (fun name data hi hin => ?_)
  have h1 := hd name data hi hin
  obtain ⟨h2, h3⟩ := C63_rate_nonneg l
  refine ⟨by omega, h2, ?_⟩
  generalize (inEffect l).args.frames_per_second = f at h2 h3
  have h4 : 8 * (data.length : Int) ≤ 2 ^ 32 := by omega
  have h5 : 8 * (data.length : Int) * f ≤ 2 ^ 32 * f := Int.mul_le_mul_of_nonneg_right h4 h2
  omega

/-- Finding: with an avcC file and no input file nothing is read, not even the avcC file, and the exit status is 0. -/
theorem C63_avcc_not_read {nd : Bool} {w : World} {l : List Opt} (h : ∀ x ∈ l, ¬ Stops x) (hi : (inEffect l).infile = none)
    (ha : (inEffect l).avcc_file ≠ none) (hw : Writable w (inEffect l).outfile) :
    ∃ r, toolRun nd w l = .val r ∧ r.status = 0 := by
  have hf : outFails w (inEffect l) = false := by
    cases hf : outFails w (inEffect l) with
    | false => rfl
    | true => exact absurd hw ((outFails_iff w _).mp hf)
  unfold toolRun
  rw [C63_options h, if_neg (fun hh => ha hh.2)]
  dsimp only
  rw [hi]
  dsimp only
  rw [hf]
  refine ⟨_, rfl, ?_⟩
  simp only [Bool.false_eq_true, if_false]
  unfold deliver
  split
  · rfl
  · split <;> rfl

/-! ### Examples -/

/-- A directory with one stream, an end of sequence, one empty file, and one that has shrunk. -/
def exWorld : World :=
  { stdin := []
    file := fun n => if n = "a".toList then some ⟨4, [0, 0, 1, 0x0A]⟩ else if n = "e".toList then some ⟨0, []⟩
      else if n = "s".toList then some ⟨5, [0, 0, 1, 0x0A]⟩ else none
    writable := fun n => decide (n = "o".toList) }

example (nd : Bool) : toolRun nd exWorld [.outfile "o".toList, .dump_length, .infile "a".toList, .frames_per_second "25".toList] =
    .val { stdout := [], outfile := some ("o".toList, csvHeader ++ "0,0,10,eoseq,1,,\n".toList), status := 0 } := by
  cases nd <;> decide +kernel

/-- Nothing to read; a file that does not exist; an empty file; an output file that cannot be written; a bad number; an option that is
not reached. -/
example (nd : Bool) :
    (∀ l ∈ ([[], [.dump_length], [.infile "x".toList], [.infile "e".toList], [.infile "s".toList], [.infile "a".toList, .outfile "p".toList],
      [.infile "a".toList, .nalu_length_bytes "-1".toList], [.infile "a".toList, .help, .version]] : List (List Opt)),
      toolRun nd exWorld l = .val { status := 255 }) ∧
    toolRun nd exWorld [.infile "a".toList, .version, .help] = .val { status := 0 } ∧
    toolRun nd exWorld [.infile "-".toList] = .val { status := 0 } ∧
    toolRun nd exWorld [.avcc_file "x".toList] = .val { status := 0 } := by
  cases nd <;> decide +kernel

end H264.Props
