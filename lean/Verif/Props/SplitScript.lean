import Verif.ScriptCuts
import Verif.DumpUnits
import Verif.Props.Stream
import Verif.Props.StapA

/-
C82: splitting a stream with h264nal-split.py.
-/

namespace H264.Props

open H264 H264.Spec H264.Shown H264.Script

theorem cat_units {opts : ParsingOptions} {l : Int} {text : NalUnit → List Char} : ∀ {ns : List NalUnit},
    (∀ n ∈ ns, n.fdump l opts = .val (text n)) → ∀ bytes : NalUnit → List UInt8,
    cat (ns.map fun n => cat [n.fdump l opts, .val ['\n']]) = .val (ns.flatMap fun n => unitText false (bytes n) (text n))
  | [], _, _ => rfl
  | n :: ns, h, b => by
    rw [List.map_cons, cat, cat_units (fun m hm => h m (by simp [hm])) b, h n (by simp)]
    simp [cat, unitText]

/-- What the tool writes for the script. -/
theorem script_text {nd : Bool} {data : List UInt8} (hl : data.length < 2 ^ 32) :
    ∃ (bs : Bitstream) (σ' : Store) (c' : Nat) (code : Int),
      parseBitstream nd (toolOptions toolArgs) data {} 0 = .val (bs, σ', c') ∧
      toolMain nd toolArgs data = .val (unitsText (toolOptions toolArgs) (bytesIn data) 0 {} bs.nal_units, code) := by
  obtain ⟨bs, σ', c', text, code, h1, h2, h3⟩ := C58_annexB_partial (nd := nd) (a := toolArgs) (by decide) rfl hl
  refine ⟨bs, σ', c', code, h1, ?_⟩
  have hd := bitstream_draws Store.valid_empty (by omega) h1
  have ht := hd.text (opts := toolOptions toolArgs) (by intro h; cases h) (l := 0) (by unfold Lev; omega)
  rw [cat_units (l := 0) (text := text) h2 (fun n => (data.drop n.offset).take n.length)] at ht
  rw [h3]
  have := Res.val.inj ht
  rw [← this]
  rfl

/-- What the script makes of a stream. -/
theorem script_main {nd : Bool} {data : List UInt8} (hl : data.length < 2 ^ 32) :
    ∃ (bs : Bitstream) (σ' : Store) (c' : Nat) (out : List Char) (code : Int),
      parseBitstream nd (toolOptions toolArgs) data {} 0 = .val (bs, σ', c') ∧ toolMain nd toolArgs data = .val (out, code) ∧
      main nd data = .val (if code ≠ 0 then .failed else
        match points data none bs.nal_units with | [] => .unchanged | p :: ps => .files (splitFile data (p :: ps))) := by
  obtain ⟨bs, σ', c', code, h1, h2⟩ := script_text (nd := nd) hl
  refine ⟨bs, σ', c', _, code, h1, h2, ?_⟩
  unfold main
  rw [h2, Res.val_bind]
  dsimp only
  by_cases hc : code = 0
  · rw [if_neg (by simp [hc]), if_neg (by simp [hc]), splitWith, points_eq]
    generalize points data none bs.nal_units = ps
    cases ps <;> rfl
  · rw [if_pos hc, if_pos hc]
    rfl

/-- The NAL units of a stream on which the tool succeeds. -/
theorem script_tiled {nd : Bool} {data : List UInt8} (hl : data.length < 2 ^ 32) {bs : Bitstream} {σ' : Store} {c' : Nat}
    (h : parseBitstream nd (toolOptions toolArgs) data {} 0 = .val (bs, σ', c')) {out : List Char}
    (hm : toolMain nd toolArgs data = .val (out, 0)) :
    Tiled data bs.nal_units ∧ bs.nal_units.map (·.offset) = (starts data).map (· + 3) := by
  have hlen := ((C57_exit_partial (by decide) hl h hm).2.2.mp rfl).2.1
  have ho := ((C18_in_order nd _ data (by omega) {} 0 bs σ' c').mp h).2
  refine tiled_of (starts data) bs.nal_units (starts_sorted data) (fun p hp => mem_starts.mp hp)
    (fun n hn => ((units_sum (by omega) h).2.2 n hn).1) ((Script.inOrder_all ho).2 ?_)
  rw [List.length_map, entries_length, hlen]

/-- C82: the script ends regularly for every file, and it writes nothing if the tool fails. -/
theorem C82_run (nd : Bool) {data : List UInt8} (hl : data.length < 2 ^ 32) :
    ∃ o out code, main nd data = .val o ∧ toolMain nd toolArgs data = .val (out, code) ∧ o ≠ .keyError ∧ (o = .failed ↔ code ≠ 0) := by
  obtain ⟨bs, σ', c', out, code, _, h2, h3⟩ := script_main (nd := nd) hl
  refine ⟨_, out, code, h3, h2, ?_, ?_⟩
  · split
    · simp
    · split <;> simp
  · by_cases hc : code = 0
    · rw [if_neg (by simp [hc])]
      refine ⟨fun h => ?_, fun h => absurd hc h⟩
      split at h <;> cases h
    · rw [if_pos hc]
      exact ⟨fun _ => hc, fun _ => rfl⟩

/-- C82: the files put together are the input, they are cut between NAL units only, and each but the first begins with an SPS for which
the script has read another size than for the SPSs of the file before. -/
theorem C82_split_partial {nd : Bool} {data : List UInt8} (hl : data.length < 2 ^ 32) {bs : Bitstream} {σ' : Store} {c' : Nat}
    (h : parseBitstream nd (toolOptions toolArgs) data {} 0 = .val (bs, σ', c')) {o : Outcome} (hm : main nd data = .val o)
    (ho : o ≠ .failed) :
    ∃ groups, groups.flatten = bs.nal_units ∧ ChangesBetween comparedSize groups ∧
      ((o = .unchanged ∧ groups.length = 1) ∨
        ∃ pieces, o = .files pieces ∧ 2 ≤ pieces.length ∧ pieces.flatten = data ∧ Cuts pieces ∧ Within 0 pieces groups) := by
  obtain ⟨bs2, σ2, c2, out, code, h1, h2, h3⟩ := script_main (nd := nd) hl
  rw [h1] at h
  obtain ⟨rfl, rfl, rfl⟩ : bs2 = bs ∧ σ2 = σ' ∧ c2 = c' := by
    have := Res.val.inj h
    simp only [Prod.mk.injEq] at this
    exact this
  rw [hm] at h3
  replace h3 := Res.val.inj h3
  have hc : code = 0 := by
    refine Classical.byContradiction fun hc => ho ?_
    rw [h3, if_pos hc]
  rw [if_neg (by simp [hc])] at h3
  subst hc
  obtain ⟨ht, hs⟩ := script_tiled hl h1 h2
  obtain ⟨g, gs, w1, w2, w3, w4, w5, w6⟩ := walk data bs2.nal_units [] 0 none ht (by simp) (by omega) (by simp) (by simp)
    (fun p hp _ => by
      have : p + 3 ∈ bs2.nal_units.map (·.offset) := by rw [hs]; exact List.mem_map_of_mem (mem_starts.mpr hp)
      obtain ⟨m, hm, e⟩ := List.mem_map.mp this
      exact ⟨m, by simpa using hm, e⟩)
  rw [List.nil_append] at w2 w3
  refine ⟨g :: gs, w1, w3, ?_⟩
  generalize points data none bs2.nal_units = ps at *
  cases ps with
  | nil => exact .inl ⟨h3, by rw [List.length_cons, w6]; rfl⟩
  | cons p ps =>
    refine .inr ⟨_, h3, ?_, ?_, w5, w2⟩
    · show 2 ≤ (slices data (0 :: p :: (ps ++ [data.length]))).length
      rw [slices_two]
      cases ps <;> exact Nat.succ_le_succ (Nat.succ_le_succ (Nat.zero_le _))
    · exact w4

/-- C82: parsed one after the other, the files give the NAL units of the input. -/
theorem C82_files_parse {nd : Bool} {data : List UInt8} (hl : data.length < 2 ^ 32) {bs : Bitstream} {σ' : Store} {c' : Nat}
    (h : parseBitstream nd (toolOptions toolArgs) data {} 0 = .val (bs, σ', c')) {pieces : List (List UInt8)}
    (hm : main nd data = .val (.files pieces)) : Fed nd (toolOptions toolArgs) 0 pieces {} 0 bs.nal_units σ' c' := by
  obtain ⟨_, _, _, ⟨k, _⟩ | ⟨ps, e, _, e2, hc, _⟩⟩ := C82_split_partial hl h hm (by simp)
  · cases k
  · cases e
    subst e2
    exact ((C67_pieces nd _ hc (by omega) {} 0 bs σ' c').mp h).2

theorem changes_congr {f g : NalUnit → Option (Nat × Nat)} {gs : List (List NalUnit)} (h : ChangesBetween f gs)
    (e : ∀ n ∈ gs.flatten, f n = g n) : ChangesBetween g gs := by
  induction h with
  | @last l h1 =>
    refine .last fun m hm n hn r s h2 h3 => h1 m hm n hn r s ?_ ?_
    · rw [e m (by simpa using hm)]; exact h2
    · rw [e n (by simpa using hn)]; exact h3
  | @next l n h gs h1 h2 h3 ih =>
    have e1 : ∀ m ∈ l, f m = g m := fun m hm => e m (by simp [hm])
    refine .next (fun m hm n hn r s k2 k3 => h1 m hm n hn r s ?_ ?_) ?_ (ih fun m hm => e m ?_)
    · rw [e1 m hm]; exact k2
    · rw [e1 n hn]; exact k3
    · obtain ⟨m, hm, r, s, k1, k2, k3⟩ := h2
      exact ⟨m, hm, r, s, by rw [← e1 m hm]; exact k1, by rw [← e n (by simp)]; exact k2, k3⟩
    · rw [List.flatten_cons, List.mem_append]
      exact .inr hm

/-- C82: if no SPS of the stream has sar_width and sar_height, the files are what is between changes of the resolution. -/
theorem C82_resolution_partial {nd : Bool} {data : List UInt8} (hl : data.length < 2 ^ 32) {bs : Bitstream} {σ' : Store} {c' : Nat}
    (h : parseBitstream nd (toolOptions toolArgs) data {} 0 = .val (bs, σ', c'))
    (ha : ∀ n ∈ bs.nal_units, ∀ x, heldSps n = some x → sampleAspect x = none) {o : Outcome} (hm : main nd data = .val o)
    (ho : o ≠ .failed) :
    ∃ groups, groups.flatten = bs.nal_units ∧ ChangesBetween (fun n => (heldSps n).map resolutionOf) groups ∧
      ((o = .unchanged ∧ groups.length = 1) ∨
        ∃ pieces, o = .files pieces ∧ 2 ≤ pieces.length ∧ pieces.flatten = data ∧ Cuts pieces ∧ Within 0 pieces groups) := by
  obtain ⟨gs, h1, h2, h3⟩ := C82_split_partial hl h hm ho
  refine ⟨gs, h1, changes_congr h2 fun n hn => ?_, h3⟩
  unfold comparedSize
  cases hx : heldSps n with
  | none => rfl
  | some x => rw [Option.map_some, Option.map_some, ha n (by rw [← h1]; exact hn) x hx]; rfl

/-! ### Examples -/

/-- Another resolution. -/
def exWideSps : SpsSyn := { exStapSps with tail := { exStapSps.tail with pic_width_in_mbs_minus1 := 80 } }
def exWideSpsNal : List UInt8 := exRbsp (exHdr 3 7) (encSps exWideSps) 0

/-- VUI parameters with a sample aspect ratio only. -/
def exSar (w h : Nat) : Vui := { aspect_ratio_info_present_flag := 1, aspect_ratio_idc := 255, sar_width := w, sar_height := h }
def withSar (x : SpsSyn) (w h : Nat) : SpsSyn :=
  { x with tail := { x.tail with vui_parameters_present_flag := 1, vui_parameters := some (exSar w h) } }
def sarNal (x : SpsSyn) (w h : Nat) : List UInt8 := escape (exRbsp (exHdr 3 7) (encSps (withSar x w h)) 0)

/-- Cut before the zero byte of the second start code. -/
example (nd : Bool) : main nd (annexB [(true, exStapSpsNal), (true, [10]), (true, exWideSpsNal), (false, exWideSpsNal)]) =
    .val (.files [annexB [(true, exStapSpsNal), (true, [10])], annexB [(true, exWideSpsNal), (false, exWideSpsNal)]]) := by
  cases nd <;> decide +kernel

/-- Two SPSs with different resolutions: not cut, because the sample aspect ratios are equal. -/
theorem C82_missed (nd : Bool) : main nd (annexB [(true, sarNal exStapSps 4 3), (true, sarNal exWideSps 4 3)]) = .val .unchanged ∧
    ∃ r, parseBitstream nd (toolOptions toolArgs) (annexB [(true, sarNal exStapSps 4 3), (true, sarNal exWideSps 4 3)]) {} 0 = .val r ∧
      (r.1.nal_units.map fun n => (heldSps n).map resolutionOf) = [some (1920, 1080), some (1296, 1080)] := by
  cases nd <;> exact ⟨by decide +kernel, exists_dec (by decide +kernel)⟩

/-- Two SPSs with the same resolution: cut, because the sample aspect ratios differ. -/
theorem C82_needless (nd : Bool) : main nd (annexB [(true, sarNal exStapSps 4 3), (true, sarNal exStapSps 16 9)]) =
      .val (.files [annexB [(true, sarNal exStapSps 4 3)], annexB [(true, sarNal exStapSps 16 9)]]) ∧
    ∃ r, parseBitstream nd (toolOptions toolArgs) (annexB [(true, sarNal exStapSps 4 3), (true, sarNal exStapSps 16 9)]) {} 0 = .val r ∧
      (r.1.nal_units.map fun n => (heldSps n).map resolutionOf) = [some (1920, 1080), some (1920, 1080)] := by
  cases nd <;> exact ⟨by decide +kernel, exists_dec (by decide +kernel)⟩

/-- A file need not make sense on its own: the PPS of the slice in the second one is in the first one. -/
theorem C82_not_alone (nd : Bool) :
    main nd (annexB [(true, exStapSpsNal), (true, exStapPps601), (true, exWideSpsNal), (true, exStapSlice)]) =
      .val (.files [annexB [(true, exStapSpsNal), (true, exStapPps601)], annexB [(true, exWideSpsNal), (true, exStapSlice)]]) ∧
    (toolMain nd toolArgs (annexB [(true, exWideSpsNal), (true, exStapSlice)])).passes (fun x => decide (x.2 ≠ 0)) = true := by
  cases nd <;> exact ⟨by decide +kernel, by decide +kernel⟩

/-! ### Names -/

theorem lastDot_append : ∀ {path a b : List Char}, lastDot path = some (a, b) → a ++ b = path
  | [], _, _, h => by cases h
  | c :: t, a, b, h => by
    rw [lastDot] at h
    cases hd : lastDot t with
    | none =>
      rw [hd] at h
      dsimp only at h
      split at h
      · cases h; rfl
      · cases h
    | some x =>
      obtain ⟨a', b'⟩ := x
      rw [hd] at h
      cases h
      rw [List.cons_append, lastDot_append hd]

theorem splitext_append (path : List Char) : (splitext path).1 ++ (splitext path).2 = path := by
  unfold splitext
  cases h : lastDot path with
  | none => simp
  | some x =>
    obtain ⟨a, b⟩ := x
    dsimp only
    split
    · simp
    · exact lastDot_append h

theorem number_zeros (k : Nat) (l : List Char) : number 10 (List.replicate k '0' ++ l) = number 10 l := by
  induction k with
  | zero => rfl
  | succ k ih => rw [List.replicate_succ, List.cons_append]; unfold number at *; rw [List.foldl_cons]; exact ih

/-- C82: the files have different names, and none has the name of the input. -/
theorem C82_names (path : List Char) (i j : Nat) :
    (pieceName path i = pieceName path j → i = j) ∧ pieceName path i ≠ path := by
  constructor
  · intro h
    unfold pieceName at h
    dsimp only at h
    have h := List.append_cancel_right h
    have h := List.append_cancel_left h
    have h := congrArg (number 10) (List.cons.inj h).2
    rw [number_zeros, number_zeros, (toDigits_props (by decide) (by decide) _).1, (toDigits_props (by decide) (by decide) _).1] at h
    omega
  · intro h
    have := congrArg List.length h
    have e := congrArg List.length (splitext_append path)
    rw [List.length_append] at e
    unfold pieceName at this
    simp only [List.length_append, List.length_cons] at this
    omega

example : pieceName "a.b/video.264".toList 0 = "a.b/video.01.264".toList ∧ pieceName "a.b/video".toList 9 = "a.b/video.10".toList := by
  decide +kernel

end H264.Props
