import Verif.Codecs.Basic
import Verif.Auto

/-
Properties C22-C25: NAL unit header, HRD and VUI parsers.  `run nd p ⟨b, c⟩` runs parser `p` on the reader `b` with
unimplemented counter `c`; `b.rem` are the unread bits and `b.adv n` is `b` moved forward by `n` bits.
-/

namespace H264.Props
open H264

/-- C22: `ParseNalUnitHeader` returns `h` iff the next bits are the encoding of `h` (and `h` is a header the library
implements); it then has consumed exactly that encoding. -/
theorem C22_nalHeader_exact (nd : Bool) {b : Buf} (hb : b.WF) (c : Nat) (h : NalHeader) (s' : St) :
    run nd parseNalHeader ⟨b, c⟩ = .ok h s' ↔
      h.Ok ∧ (∃ r, b.rem = encNalHeader h ++ r) ∧ s' = ⟨b.adv (encNalHeader h).length, c⟩ :=
  codec_nalHeader.run nd hb c h s'

/-- C22: a header is one byte, or four with the SVC extension. -/
theorem C22_nalHeader_size {h : NalHeader} (ok : h.Ok) :
    (encNalHeader h).length = if h.nal_unit_type = 14 ∨ h.nal_unit_type = 20 then 32 else 8 := by
  have := ok.ext
  unfold encNalHeader
  split at this
  · rename_i hc
    obtain ⟨_, e, he, _⟩ := this
    simp [hc, he, encSvcHeaderExt]
  · rename_i hc
    simp [hc]

/-- A header with SVC extension. -/
def exHeader : NalHeader :=
  { nal_ref_idc := 3, nal_unit_type := 20, svc_extension_flag := 1,
    svc_extension := some { idr_flag := 1, priority_id := 5, dependency_id := 2, output_flag := 1,
                            reserved_three_2bits := 3 } }

theorem exHeader_ok : exHeader.Ok :=
  ⟨by decide, by decide, by decide, by decide, ⟨rfl, _, rfl, ⟨by decide, by decide, by decide, by decide, by decide,
    by decide, by decide, by decide, by decide, by decide⟩⟩⟩

example : run false parseNalHeader ⟨{ bytes := [0x74, 0xC5, 0x20, 0x07, 0xFF], byteOff := 0, bitOff := 0 }, 0⟩ =
    .ok exHeader ⟨{ bytes := [0x74, 0xC5, 0x20, 0x07, 0xFF], byteOff := 4, bitOff := 0 }, 0⟩ := by
  rw [C22_nalHeader_exact false ⟨by decide, by decide, by decide⟩]
  exact ⟨exHeader_ok, ⟨allBits [0xFF], by decide +kernel⟩, by decide +kernel⟩

/-- C23: the next bits announce an extension the library does not implement: type 14 or 20 with svc_extension_flag 0
(MVC), or type 21. -/
def Unsupported (l : List Bool) : Prop :=
  9 ≤ l.length ∧
  (((bitsVal ((l.drop 3).take 5) = 14 ∨ bitsVal ((l.drop 3).take 5) = 20) ∧ l[8]? = some false) ∨
   bitsVal ((l.drop 3).take 5) = 21)

/-- Reading one more field. -/
theorem runL_u_le (nd : Bool) {n : Nat} (h1 : 1 ≤ n) (h2 : n ≤ 32) {l : List Bool} (h : n ≤ l.length) (c : Nat) :
    runL nd (Prog.u n) ⟨l, c⟩ = .ok (bitsVal (l.take n)) ⟨l.drop n, c⟩ := by
  rw [runL_u, if_neg (by simp only; omega)]
theorem runL_u_gt (nd : Bool) {n : Nat} {l : List Bool} (h : l.length < n) (c : Nat) :
    runL nd (Prog.u n) ⟨l, c⟩ = .null ⟨l, c⟩ := by
  rw [runL_u, if_pos (by simp only; omega)]

/-- Programs that never touch the unimplemented counter. -/
def KeepsCnt {α : Type} (p : Prog α) : Prop :=
  ∀ nd s, match runL nd p s with
    | .ok _ s' => s'.cnt = s.cnt
    | .null s' => s'.cnt = s.cnt
    | .bad _ => True

theorem KeepsCnt.bind {α β : Type} {p : Prog α} {f : α → Prog β} (hp : KeepsCnt p) (hf : ∀ a, KeepsCnt (f a)) :
    KeepsCnt (p >>= f) := by
  intro nd s
  rw [runL_bind]
  have h1 := hp nd s
  revert h1
  cases runL nd p s with
  | ok a s1 =>
    intro h1
    have h2 := hf a nd s1
    revert h2
    simp only [Out.bind]
    cases runL nd (f a) s1 <;> simp_all
  | null s1 => simp [Out.bind]
  | bad e => simp [Out.bind]
theorem KeepsCnt.u (n : Nat) : KeepsCnt (Prog.u n) := by
  intro nd s
  rw [runL_u]
  by_cases h : n = 0 ∨ n > 32 ∨ n > s.rem.length
  · rw [if_pos h]
  · rw [if_neg h]
theorem KeepsCnt.pure {α : Type} (a : α) : KeepsCnt (Pure.pure a : Prog α) := by intro nd s; simp

theorem keepsCnt_svcHeaderExt : KeepsCnt parseSvcHeaderExt := by
  unfold parseSvcHeaderExt
  iterate 10 refine KeepsCnt.bind (KeepsCnt.u _) (fun _ => ?_)
  exact KeepsCnt.pure _

/-- C23 on the list of unread bits. -/
theorem nalHeader_counter (nd : Bool) (l : List Bool) (c : Nat) :
    (Unsupported l → ∃ r, runL nd parseNalHeader ⟨l, c⟩ = .null ⟨r, c + 1⟩) ∧
    (¬ Unsupported l → match runL nd parseNalHeader ⟨l, c⟩ with
      | .ok _ s' => s'.cnt = c
      | .null s' => s'.cnt = c
      | .bad _ => True) := by
  unfold parseNalHeader
  by_cases h1 : 1 ≤ l.length
  rotate_left
  · rw [runL_bind, runL_u_gt nd (by omega)]
    refine ⟨fun hu => ?_, fun _ => rfl⟩
    have := hu.1; omega
  rw [runL_bind, runL_u_le nd (by omega) (by omega) h1]
  simp only [Out.bind]
  by_cases h2 : 3 ≤ l.length
  rotate_left
  · rw [runL_bind, runL_u_gt nd (by simp; omega)]
    refine ⟨fun hu => ?_, fun _ => rfl⟩
    have := hu.1; omega
  rw [runL_bind, runL_u_le nd (by omega) (by omega) (by simp; omega)]
  simp only [Out.bind, List.drop_drop]
  by_cases h3 : 8 ≤ l.length
  rotate_left
  · rw [runL_bind, runL_u_gt nd (by simp; omega)]
    refine ⟨fun hu => ?_, fun _ => rfl⟩
    have := hu.1; omega
  rw [runL_bind, runL_u_le nd (by omega) (by omega) (by simp; omega)]
  simp only [Out.bind, List.drop_drop, Nat.reduceAdd]
  unfold Prog.opt
  split
  rotate_left
  · rename_i ht
    refine ⟨fun hu => ?_, fun _ => by simp⟩
    exact absurd hu.2 (by omega)
  rename_i ht
  have hd : bitsVal ((l.drop 8).take 1) = 1 ∨ bitsVal ((l.drop 8).take 1) = 0 := by
    have := bitsVal_lt ((l.drop 8).take 1)
    have h' : ((l.drop 8).take 1).length ≤ 1 := by simp; omega
    have := Nat.pow_le_pow_right (n := 2) (by omega) h'
    omega
  by_cases h4 : 9 ≤ l.length
  rotate_left
  · refine ⟨fun hu => ?_, fun _ => ?_⟩
    · have := hu.1; omega
    · unfold parseExtFlags
      have h5 : (l.drop 8).length < 1 := by simp; omega
      by_cases h21 : bitsVal ((l.drop 3).take 5) ≠ 21
      · rw [if_pos h21, runL_bind, runL_bind, runL_bind, runL_u_gt nd h5]; rfl
      · rw [if_neg h21, runL_bind, runL_bind, runL_bind, runL_u_gt nd h5]; rfl
  have e8 : (l.drop 8).take 1 = [l[8]'(by omega)] := by
    rw [List.drop_eq_getElem_cons (by omega)]; rfl
  have hflag : bitsVal ((l.drop 8).take 1) = 0 ↔ l[8]? = some false := by
    rw [e8, List.getElem?_eq_getElem (by omega)]
    cases l[8] <;> simp [bitsVal]
  have hnull : ∀ x : Nat × Nat, x.1 = 0 → ∀ s : LSt,
      runL nd (parseExtBody x) s = .null { s with cnt := s.cnt + 1 } := by
    intro x hx s
    unfold parseExtBody
    rw [if_neg (by omega)]
    split <;> simp [runL_bind, runL_unimpl, Out.bind]
  by_cases h21 : bitsVal ((l.drop 3).take 5) = 21
  · refine ⟨fun _ => ?_, fun hu => absurd ⟨h4, Or.inr h21⟩ hu⟩
    unfold parseExtFlags
    rw [if_neg (by omega)]
    simp only [runL_bind, runL_u_le nd (show 1 ≤ 1 by omega) (by omega) (show 1 ≤ (l.drop 8).length by simp; omega),
      Out.bind, Prog.pure_eq, runL_ret]
    rw [hnull _ rfl]
    exact ⟨_, rfl⟩
  · unfold parseExtFlags
    rw [if_pos h21]
    simp only [runL_bind, runL_u_le nd (show 1 ≤ 1 by omega) (by omega) (show 1 ≤ (l.drop 8).length by simp; omega),
      Out.bind, Prog.pure_eq, runL_ret]
    rcases hd with hd | hd
    · refine ⟨fun hu => ?_, fun _ => ?_⟩
      · rcases hu.2 with h | h
        · have := hflag.mpr h.2; omega
        · exact absurd h h21
      · unfold parseExtBody
        rw [if_pos (by simp only; omega)]
        have := keepsCnt_svcHeaderExt nd ⟨(l.drop 8).drop 1, c⟩
        revert this
        rw [runL_bind]
        cases runL nd parseSvcHeaderExt ⟨(l.drop 8).drop 1, c⟩ <;> simp_all [Out.bind]
    · refine ⟨fun _ => ?_, fun hu => absurd ⟨h4, Or.inl ⟨by omega, hflag.mp hd⟩⟩ hu⟩
      rw [hnull _ hd]
      exact ⟨_, rfl⟩

/-- C23: a header announcing an MVC or 3D-AVC extension is refused and counted once. -/
theorem C23_unsupported_refused_and_counted (nd : Bool) {b : Buf} (hb : b.WF) (c : Nat) (h : Unsupported b.rem) :
    ∃ b', run nd parseNalHeader ⟨b, c⟩ = .null ⟨b', c + 1⟩ := by
  obtain ⟨r, hr⟩ := (nalHeader_counter nd b.rem c).1 h
  exact ⟨_, by rw [run_eq nd _ hb c, hr]; rfl⟩

/-- C23: any other header, accepted or refused, leaves the counter as it was. -/
theorem C23_other_headers_not_counted (nd : Bool) {b : Buf} (hb : b.WF) (c : Nat) (h : ¬ Unsupported b.rem) :
    ∃ b', (∃ hd, run nd parseNalHeader ⟨b, c⟩ = .ok hd ⟨b', c⟩) ∨ run nd parseNalHeader ⟨b, c⟩ = .null ⟨b', c⟩ := by
  have h1 := (nalHeader_counter nd b.rem c).2 h
  have h2 := safe_nalHeader nd ⟨b.rem, c⟩
  rw [run_eq nd _ hb c]
  revert h1 h2
  cases runL nd parseNalHeader ⟨b.rem, c⟩ with
  | ok a s1 => intro h1 _; exact ⟨_, Or.inl ⟨a, by simp only [Out.mapSt, toSt] at *; rw [h1]⟩⟩
  | null s1 => intro h1 _; exact ⟨_, Or.inr (by simp only [Out.mapSt, toSt] at *; rw [h1])⟩
  | bad e => intro _ h2; exact absurd rfl (h2 e)

example : Unsupported (allBits [0x6E, 0x40, 0, 0]) := by unfold Unsupported; decide +kernel
example : ¬ Unsupported (allBits [0x6E, 0x80, 0, 0]) := by unfold Unsupported; decide +kernel

/-- C24: `ParseHrdParameters` returns `h` iff the next bits are its E.1.2 encoding and its fields are in range. -/
theorem C24_hrd_exact (nd : Bool) {b : Buf} (hb : b.WF) (c : Nat) (h : Hrd) (s' : St) :
    run nd parseHrd ⟨b, c⟩ = .ok h s' ↔
      h.Ok ∧ (∃ r, b.rem = encHrd h ++ r) ∧ s' = ⟨b.adv (encHrd h).length, c⟩ :=
  codec_hrd.run nd hb c h s'

/-- C24: each list of a returned HRD has `cpb_cnt_minus1 + 1 ≤ 32` entries. -/
theorem C24_hrd_counts (nd : Bool) {b : Buf} (hb : b.WF) (c : Nat) {h : Hrd} {s' : St}
    (hr : run nd parseHrd ⟨b, c⟩ = .ok h s') :
    h.bit_rate_value_minus1.length = h.cpb_cnt_minus1 + 1 ∧ h.cpb_size_value_minus1.length = h.cpb_cnt_minus1 + 1 ∧
    h.cbr_flag.length = h.cpb_cnt_minus1 + 1 ∧ h.cpb_cnt_minus1 + 1 ≤ 32 := by
  obtain ⟨ok, _⟩ := (C24_hrd_exact nd hb c h s').mp hr
  exact ⟨ok.bit_rate_len, ok.cpb_size_len, ok.cbr_len, by have := ok.cpb_cnt_minus1; omega⟩

/-- C24: on any other input it returns null; it never runs into undefined behaviour. -/
theorem C24_hrd_safe (nd : Bool) {b : Buf} (hb : b.WF) (c : Nat) (e : Bad) : run nd parseHrd ⟨b, c⟩ ≠ .bad e :=
  safe_hrd.run nd hb c e

/-- An HRD with two schedules. -/
def exHrd : Hrd :=
  { cpb_cnt_minus1 := 1, bit_rate_scale := 4, cpb_size_scale := 3, bit_rate_value_minus1 := [15, 4294967294],
    cpb_size_value_minus1 := [0, 7], cbr_flag := [0, 1], initial_cpb_removal_delay_length_minus1 := 23,
    cpb_removal_delay_length_minus1 := 23, dpb_output_delay_length_minus1 := 23, time_offset_length := 24 }

theorem exHrd_ok : exHrd.Ok := by constructor <;> decide +kernel

/-- C24 is not vacuous: parsing the encoding of `exHrd` gives it back. -/
example (nd : Bool) : runL nd parseHrd ⟨encHrd exHrd ++ [true, false], 0⟩ = .ok exHrd ⟨[true, false], 0⟩ :=
  codec_hrd.parse_append nd exHrd_ok _ _

/-- C25: `ParseVuiParameters` returns `v` iff the next bits are its E.1.1 encoding and its fields are in range, absent
fields having their default value. -/
theorem C25_vui_exact (nd : Bool) {b : Buf} (hb : b.WF) (c : Nat) (v : Vui) (s' : St) :
    run nd parseVui ⟨b, c⟩ = .ok v s' ↔
      v.Ok ∧ (∃ r, b.rem = encVui v ++ r) ∧ s' = ⟨b.adv (encVui v).length, c⟩ :=
  codec_vui.run nd hb c v s'

/-- C25: on any other input it returns null; it never runs into undefined behaviour. -/
theorem C25_vui_safe (nd : Bool) {b : Buf} (hb : b.WF) (c : Nat) (e : Bad) : run nd parseVui ⟨b, c⟩ ≠ .bad e :=
  safe_vui.run nd hb c e

/-- VUI parameters using most optional blocks. -/
def exVui : Vui :=
  { aspect_ratio_info_present_flag := 1, aspect_ratio_idc := 255, sar_width := 40, sar_height := 33,
    video_signal_type_present_flag := 1, video_format := 5, video_full_range_flag := 1,
    colour_description_present_flag := 1, colour_primaries := 1, transfer_characteristics := 13,
    matrix_coefficients := 6, timing_info_present_flag := 1, num_units_in_tick := 1001, time_scale := 60000,
    fixed_frame_rate_flag := 1, vcl_hrd_parameters_present_flag := 1, vcl_hrd_parameters := some exHrd,
    low_delay_hrd_flag := 1, bitstream_restriction_flag := 1, max_bytes_per_pic_denom := 2,
    log2_max_mv_length_horizontal := 16, max_dec_frame_buffering := 4 }

theorem exVui_ok : exVui.Ok := by
  constructor <;> first | decide +kernel | exact (rfl : (none : Option Hrd) = none) | exact ⟨exHrd, rfl, exHrd_ok⟩

example (nd : Bool) : runL nd parseVui ⟨encVui exVui ++ [true], 3⟩ = .ok exVui ⟨[true], 3⟩ :=
  codec_vui.parse_append nd exVui_ok _ _

end H264.Props
