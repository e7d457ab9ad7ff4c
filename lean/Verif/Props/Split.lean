import Verif.SplitLemmas

/-
Properties C13 - C16: splitting a stream into NAL units.
-/

namespace H264.Props
open H264 H264.Spec

/-- C13: FindNaluIndices returns exactly the entries of the start codes in the data (`starts` lists the indices of all
00 00 01 followed by at least one byte). -/
theorem C13_find_exact (l : List UInt8) (hl : l.length < 2 ^ 64) : findNaluIndices l = .val (entries l (starts l)) :=
  findNaluIndices_eq l hl

theorem entries_map (l : List UInt8) : ∀ ps, (entries l ps).map NaluIndex.payload_start_offset = ps.map (· + 3)
  | [] => rfl
  | [_] => rfl
  | p :: q :: r => by
    have := entries_map l (q :: r)
    simp only [entries, List.map_cons] at this ⊢
    rw [this]

/-- C13, spelled out: an entry with payload offset `q` is reported iff the three bytes before `q` are 00 00 01 and there is a
byte at `q`; and it is reported once. -/
theorem C13_reported_iff (l : List UInt8) (hl : l.length < 2 ^ 64) :
    ∃ idx, findNaluIndices l = .val idx ∧ (idx.map NaluIndex.payload_start_offset).Nodup ∧
      ∀ q, q ∈ idx.map NaluIndex.payload_start_offset ↔
        3 ≤ q ∧ q < l.length ∧ l[q - 3]? = some 0 ∧ l[q - 2]? = some 0 ∧ l[q - 1]? = some 1 := by
  refine ⟨_, C13_find_exact l hl, ?_, fun q => ?_⟩
  · rw [entries_map]
    have : (List.map (· + 3) (starts l)).Pairwise (· < ·) :=
      List.Pairwise.map _ (by intro a b h; show _ < _; omega) (starts_sorted l)
    exact this.imp (fun h => by omega)
  · rw [entries_map]
    simp only [List.mem_map, mem_starts]
    constructor
    · rintro ⟨p, ⟨⟨h1, h2, h3⟩, h4⟩, rfl⟩
      refine ⟨by omega, h4, ?_, ?_, ?_⟩
      · rw [← h1]; congr 1
      · rw [← h2]; congr 1
      · rw [← h3]; congr 1
    · rintro ⟨h3, hq, g1, g2, g3⟩
      refine ⟨q - 3, ⟨⟨g1, ?_, ?_⟩, by omega⟩, by omega⟩
      · rw [← g2]; congr 1; omega
      · rw [← g3]; congr 1; omega

theorem entries_inside (l : List UInt8) : ∀ ps : List Nat, ps.Pairwise (· < ·) → (∀ p ∈ ps, isStart l p) →
    ∀ e ∈ entries l ps, e.start_offset < e.payload_start_offset ∧ e.payload_start_offset ≤ e.start_offset + 4 ∧
      e.payload_start_offset + e.payload_size ≤ l.length
  | [], _, _, e, he => by simp [entries] at he
  | [p], _, hp, e, he => by
    simp only [entries, List.mem_singleton] at he
    subst he
    have h1 := startOffset_le l p
    have h2 := (hp p (by simp)).2
    have h3 : p ≤ startOffset l p + 1 := by unfold startOffset; split <;> omega
    exact ⟨by show startOffset l p < p + 3; omega, by show p + 3 ≤ startOffset l p + 4; omega,
      by show p + 3 + (l.length - (p + 3)) ≤ _; omega⟩
  | p :: q :: r, hs, hp, e, he => by
    simp only [entries, List.mem_cons] at he
    rw [List.pairwise_cons] at hs
    rcases he with rfl | he
    · have h1 := startOffset_le l p
      have h3 : p ≤ startOffset l p + 1 := by unfold startOffset; split <;> omega
      have h4 := start_gap (hp p (by simp)) (hp q (by simp)) (hs.1 q (by simp))
      have h5 := startOffset_le l q
      have h6 := (hp q (by simp)).2
      exact ⟨by show startOffset l p < p + 3; omega, by show p + 3 ≤ startOffset l p + 4; omega,
        by show p + 3 + (startOffset l q - (p + 3)) ≤ _; omega⟩
    · refine entries_inside l (q :: r) hs.2 (fun x hx => hp x (by simp [hx])) e ?_
      simpa using he

/-- Consecutive entries touch. -/
def Chained (l : List UInt8) : List NaluIndex → Prop
  | [] => True
  | [e] => e.payload_start_offset + e.payload_size = l.length
  | e :: e' :: r => e.payload_start_offset + e.payload_size = e'.start_offset ∧ Chained l (e' :: r)

theorem entries_chained (l : List UInt8) : ∀ ps : List Nat, ps.Pairwise (· < ·) → (∀ p ∈ ps, isStart l p) →
    Chained l (entries l ps)
  | [], _, _ => trivial
  | [p], _, hp => by
    have := (hp p (by simp)).2
    show p + 3 + (l.length - (p + 3)) = _
    omega
  | [p, q], hs, hp => by
    rw [List.pairwise_cons] at hs
    have h4 := start_gap (hp p (by simp)) (hp q (by simp)) (hs.1 q (by simp))
    have h := entries_chained l [q] hs.2 (fun x hx => hp x (by simp [hx]))
    exact ⟨by show p + 3 + (startOffset l q - (p + 3)) = startOffset l q; omega, h⟩
  | p :: q :: q' :: r, hs, hp => by
    rw [List.pairwise_cons] at hs
    have h4 := start_gap (hp p (by simp)) (hp q (by simp)) (hs.1 q (by simp))
    have h := entries_chained l (q :: q' :: r) hs.2 (fun x hx => hp x (by simp [hx]))
    exact ⟨by show p + 3 + (startOffset l q - (p + 3)) = startOffset l q; omega, h⟩

/-- C14: every reported range is inside the data (so its size did not wrap), its start code has three or four bytes, each
NAL unit ends where the next start code begins and the last one at the end of the data; entries are in increasing order. -/
theorem C14_ranges (l : List UInt8) (hl : l.length < 2 ^ 64) :
    ∃ idx, findNaluIndices l = .val idx ∧
      (∀ e ∈ idx, e.start_offset < e.payload_start_offset ∧ e.payload_start_offset ≤ e.start_offset + 4 ∧
        e.payload_start_offset + e.payload_size ≤ l.length) ∧
      Chained l idx ∧ (idx.map NaluIndex.payload_start_offset).Pairwise (· < ·) := by
  refine ⟨_, C13_find_exact l hl, entries_inside l _ (starts_sorted l) (fun p hp => mem_starts.mp hp),
    entries_chained l _ (starts_sorted l) (fun p hp => mem_starts.mp hp), ?_⟩
  rw [entries_map]
  exact List.Pairwise.map _ (by intro a b h; show _ < _; omega) (starts_sorted l)

/-- C15: splitting the Annex B stream of a list of NAL units gives the NAL units back, in order. -/
theorem C15_mux_demux (us : List (Bool × List UInt8)) (hu : ∀ x ∈ us, Carriable x.2) (hl : (annexB us).length < 2 ^ 64) :
    ∃ idx, findNaluIndices (annexB us) = .val idx ∧ idx.map (sliceOf (annexB us)) = us.map Prod.snd := by
  refine ⟨_, C13_find_exact _ hl, ?_⟩
  clear hl
  induction us with
  | nil => rfl
  | cons x us ih =>
    obtain ⟨long, u⟩ := x
    have hx := hu (long, u) (by simp)
    have ih := ih (fun y hy => hu y (by simp [hy]))
    have e : annexB ((long, u) :: us) = codeOf long ++ u ++ annexB us := rfl
    have hlen : (codeOf long ++ u).length = (codeOf long).length + u.length := by simp
    have hlast : (codeOf long ++ u).getLast? ≠ some 0 := by
      obtain ⟨t, y, ht⟩ : ∃ t y, u = t ++ [y] := by
        rcases List.eq_nil_or_concat u with h' | ⟨t, y, h'⟩
        · exact absurd h' hx.nonempty
        · exact ⟨t, y, by rw [h', List.concat_eq_append]⟩
      have := hx.last
      rw [ht] at this ⊢
      rw [← List.append_assoc]
      simpa using this
    have hk : (codeOf long).length - 3 + 3 = (codeOf long).length := by cases long <;> rfl
    rw [e, starts_unit hx, ← hlen]
    have tail := slices_shift (r := annexB us) hlast (starts (annexB us))
      (fun p hp => by have := (mem_starts.mp hp).2; omega)
    rw [ih] at tail
    have hd : (codeOf long ++ u ++ annexB us).drop (codeOf long).length = u ++ annexB us := by
      rw [List.append_assoc, List.drop_append, List.drop_length, Nat.sub_self, List.drop_zero]; rfl
    cases hs : starts (annexB us) with
    | nil =>
      rw [hs] at tail
      simp only [List.map_nil, entries, List.map_cons] at tail ⊢
      rw [← tail]
      congr 1
      cases us with
      | nil =>
        simp only [sliceOf, hk, hd]
        simp [annexB]
      | cons y us => simp at tail
    | cons q t =>
      rw [hs] at tail
      simp only [List.map_cons, entries] at tail ⊢
      rw [tail]
      congr 1
      simp only [sliceOf, hk, hd]
      have hq : q = (codeOf (us.head?.getD (false, [])).1).length - 3 ∧
          ∃ y z, us = y :: z := by
        cases us with
        | nil => simp [annexB, starts] at hs
        | cons y z =>
          have hy := hu y (by simp)
          have : starts (annexB (y :: z)) = ((codeOf y.1).length - 3) :: _ := starts_unit (long := y.1) (r := annexB z) hy
          rw [this] at hs
          injection hs with h1 h2
          exact ⟨h1.symm, _, _, rfl⟩
      obtain ⟨hq, y, z, rfl⟩ := hq
      have hu0 : 0 < u.length := List.length_pos_iff.mpr hx.nonempty
      have : startOffset (codeOf long ++ u ++ annexB (y :: z)) (q + (codeOf long ++ u).length) =
          (codeOf long ++ u).length := by
        unfold startOffset
        simp only [List.head?_cons, Option.getD_some] at hq
        obtain ⟨long', v⟩ := y
        cases long'
        · have : q = 0 := hq
          subst this
          rw [if_neg, Nat.zero_add]
          rintro ⟨k1, k2⟩
          rw [List.getElem?_append_left (by omega), Nat.zero_add, ← List.getLast?_eq_getElem?] at k2
          exact hlast k2
        · have : q = 1 := hq
          subst this
          rw [if_pos, Nat.add_comm 1, Nat.add_sub_cancel]
          refine ⟨by omega, ?_⟩
          rw [List.getElem?_append_right (by omega), show 1 + (codeOf long ++ u).length - 1 - (codeOf long ++ u).length = 0 by omega]
          rfl
      rw [this, hlen, Nat.add_sub_cancel_left, List.take_append, List.take_length, Nat.sub_self, List.take_zero,
        List.append_nil]

/-! ### Explicit framing -/

theorem loadBE32_eq {l : List UInt8} {i : Nat} (h : i + 4 ≤ l.length) :
    loadBE32 l i = .val (ofBE ((l.drop i).take 4)) ∧ ofBE ((l.drop i).take 4) < 2 ^ 32 := by
  have e : (l.drop i).take 4 = [l[i], l[i + 1], l[i + 2], l[i + 3]] := by
    rw [List.drop_eq_getElem_cons (by omega : i < l.length), List.drop_eq_getElem_cons (by omega : i + 1 < l.length),
      List.drop_eq_getElem_cons (by omega : i + 1 + 1 < l.length), List.drop_eq_getElem_cons (by omega : i + 1 + 1 + 1 < l.length)]
    rfl
  rw [e]
  unfold loadBE32
  rw [load_eq (by omega : i < l.length), load_eq (by omega : i + 1 < l.length), load_eq (by omega : i + 2 < l.length),
    load_eq (by omega : i + 3 < l.length)]
  simp only [Res.val_bind, Res.pure_eq, ofBE, List.foldl_cons, List.foldl_nil, Nat.zero_mul, Nat.zero_add, true_and]
  have a := UInt8.toNat_lt l[i]
  have b := UInt8.toNat_lt l[i + 1]
  have c := UInt8.toNat_lt l[i + 2]
  have d := UInt8.toNat_lt l[i + 3]
  omega

/-- Scanning stops where no further frame fits. -/
def StopsAt (l : List UInt8) (stop : Nat) : Prop :=
  stop = l.length ∨ (stop ≤ l.length ∧ l.length < stop + 4) ∨ (stop + 4 ≤ l.length ∧ l.length < stop + 4 + ofBE ((l.drop stop).take 4))

theorem explicitLoop_eq (l : List UInt8) (hl : l.length < 2 ^ 63) (hsz : ∀ i, i + 4 ≤ l.length → i + 4 + ofBE ((l.drop i).take 4) ≤ l.length →
      ofBE ((l.drop i).take 4) < 2 ^ 32 - 4) :
    ∀ (f i : Nat) (seqs : List NaluIndex), l.length - i ≤ f → i ≤ l.length →
      ∃ es stop, explicitLoop l f i seqs = .val (seqs ++ es) ∧ Frames l 4 i es stop ∧ StopsAt l stop := by
  intro f
  induction f with
  | zero =>
    intro i seqs hf hi
    have : i = l.length := by omega
    subst this
    rw [explicitLoop, if_neg (by omega)]
    exact ⟨[], _, by simp, .nil _, Or.inl rfl⟩
  | succ f ih =>
    intro i seqs hf hi
    rw [explicitLoop]
    by_cases h1 : i < l.length
    · rw [if_pos h1]
      by_cases h2 : l.length < i + 4
      · rw [add64_eq (by omega), if_pos h2]
        exact ⟨[], _, by simp, .nil _, Or.inr (Or.inl ⟨by omega, h2⟩)⟩
      · rw [add64_eq (by omega), if_neg (by omega), (loadBE32_eq (by omega)).1, Res.val_bind,
          sub64_eq (by omega) (show l.length < 2 ^ 64 by omega), sub64_eq (by omega) (by omega)]
        have h32 := (loadBE32_eq (l := l) (i := i) (by omega)).2
        by_cases h4 : ofBE ((l.drop i).take 4) > l.length - i - 4
        · rw [if_pos h4]
          exact ⟨[], _, by simp, .nil _, Or.inr (Or.inr ⟨by omega, by omega⟩)⟩
        · rw [if_neg h4]
          have := hsz i (by omega) (by omega)
          rw [add32_eq (by omega), add64_eq (by omega)]
          obtain ⟨es, stop, e1, e2, e3⟩ := ih (i + (4 + ofBE ((l.drop i).take 4))) (seqs ++ [⟨i, i + 4, ofBE ((l.drop i).take 4)⟩])
            (by omega) (by omega)
          refine ⟨⟨i, i + 4, ofBE ((l.drop i).take 4)⟩ :: es, stop, ?_, ?_, e3⟩
          · rw [e1]; simp
          · rw [← Nat.add_assoc] at e2
            exact .cons _ rfl (by omega) e2
    · rw [if_neg h1]
      have : i = l.length := by omega
      subst this
      exact ⟨[], _, by simp, .nil _, Or.inl rfl⟩

/-- C16: on any data in which no complete frame is 2^32 - 4 bytes or longer, FindNaluIndicesExplicitFraming reports a run of
frames from offset 0, contiguous and in bounds, that ends at the first prefix that is cut off or does not fit. -/
theorem C16_explicit_any_size_partial (l : List UInt8) (hl : l.length < 2 ^ 63)
    (hsz : ∀ i, i + 4 ≤ l.length → i + 4 + ofBE ((l.drop i).take 4) ≤ l.length → ofBE ((l.drop i).take 4) < 2 ^ 32 - 4) :
    ∃ es stop, findNaluIndicesExplicitFraming l = .val es ∧ Frames l 4 0 es stop ∧ StopsAt l stop := by
  obtain ⟨es, stop, h1, h2, h3⟩ := explicitLoop_eq l hl hsz l.length 0 [] (by omega) (by omega)
  exact ⟨es, stop, h1, h2, h3⟩

/-- C16: on any data shorter than 4 GiB, FindNaluIndicesExplicitFraming reports a run of frames from offset 0, contiguous and
in bounds, that ends at the first prefix that is cut off or does not fit. -/
theorem C16_explicit_partial (l : List UInt8) (hl : l.length < 2 ^ 32) :
    ∃ es stop, findNaluIndicesExplicitFraming l = .val es ∧ Frames l 4 0 es stop ∧ StopsAt l stop := by
  obtain ⟨es, stop, h1, h2, h3⟩ := explicitLoop_eq l (by omega) (fun i _ h => by omega) l.length 0 [] (by omega) (by omega)
  exact ⟨es, stop, h1, h2, h3⟩

theorem be_length : ∀ n v, (be n v).length = n
  | 0, _ => rfl
  | n + 1, v => by simp [be, be_length n v]

theorem ofBE_append (a b : List UInt8) : ofBE (a ++ b) = b.foldl (fun v b => v * 256 + b.toNat) (ofBE a) := by
  simp [ofBE, List.foldl_append]

theorem ofBE_foldl (l : List UInt8) : ∀ v, l.foldl (fun v b => v * 256 + b.toNat) v = v * 256 ^ l.length + ofBE l := by
  induction l with
  | nil => intro v; simp [ofBE]
  | cons a l ih =>
    intro v
    have h2 := ih (0 * 256 + a.toNat)
    simp only [List.foldl_cons, ofBE, List.length_cons] at h2 ⊢
    rw [ih, h2, Nat.zero_mul, Nat.zero_add, Nat.pow_succ, Nat.add_mul, Nat.mul_comm (256 ^ l.length) 256, Nat.mul_assoc, ofBE]
    omega

theorem ofBE_be : ∀ n v, v < 256 ^ n → ofBE (be n v) = v
  | 0, v, h => by simp at h; subst h; rfl
  | n + 1, v, h => by
    have h1 : v / 256 ^ n < 256 := by
      rw [Nat.div_lt_iff_lt_mul (Nat.pow_pos (by decide))]
      rw [Nat.pow_succ, Nat.mul_comm] at h; exact h
    have mod : ∀ n w, be n (w % 256 ^ n) = be n w := by
      intro n
      induction n with
      | zero => intro w; rfl
      | succ n ih =>
        intro w
        simp only [be]
        rw [← ih (w % 256 ^ (n + 1)), Nat.mod_mod_of_dvd _ (Nat.pow_dvd_pow 256 (Nat.le_succ n)), ih w]
        congr 1
        have : w % 256 ^ (n + 1) / 256 ^ n = w / 256 ^ n % 256 := by
          rw [Nat.pow_succ, Nat.mod_mul_right_div_self]
        rw [this]
        apply UInt8.toNat_inj.mp
        simp
    have e : ofBE (be (n + 1) v) = (be n v).foldl (fun v b => v * 256 + b.toNat) (0 * 256 + (UInt8.ofNat (v / 256 ^ n)).toNat) := rfl
    rw [e, ofBE_foldl, be_length, ← mod n v, ofBE_be n _ (Nat.mod_lt _ (Nat.pow_pos (by decide)))]
    have : (UInt8.ofNat (v / 256 ^ n)).toNat = v / 256 ^ n := by simp; omega
    rw [this, Nat.zero_mul, Nat.zero_add, Nat.mul_comm]
    exact Nat.div_add_mod v (256 ^ n)

/-- The frames of a framed list of NAL units, and what they contain. -/
theorem explicitLoop_framed (l : List UInt8) (hl : l.length < 2 ^ 63) : ∀ (us : List (List UInt8)) (f i : Nat) (seqs : List NaluIndex),
    (∀ u ∈ us, u.length < 2 ^ 32 - 4) → l.drop i = framed 4 us → i ≤ l.length → l.length - i ≤ f →
    explicitLoop l f i seqs = .val (seqs ++ framedEntries 4 i us) ∧ (framedEntries 4 i us).map (sliceOf l) = us := by
  intro us
  induction us with
  | nil =>
    intro f i seqs _ hd hi hf
    have : l.length - i = 0 := by rw [← List.length_drop, hd]; rfl
    have : ¬ i < l.length := by omega
    refine ⟨?_, rfl⟩
    cases f with
    | zero => rw [explicitLoop, if_neg this]; simp [framedEntries]
    | succ f => rw [explicitLoop, if_neg this]; simp [framedEntries]
  | cons u us ih =>
    intro f i seqs hu hd hi hf
    have hul := hu u (by simp)
    have hlen : l.length - i = 4 + u.length + (framed 4 us).length := by
      rw [← List.length_drop, hd]; simp [framed, be_length]; omega
    have ht : (l.drop i).take 4 = be 4 u.length := by
      rw [hd, framed, List.append_assoc, List.take_append, be_length, List.take_of_length_le (by rw [be_length]; omega)]
      simp
    have hsz : ofBE ((l.drop i).take 4) = u.length := by
      rw [ht, ofBE_be _ _ (by show _ < 4294967296; omega)]
    have hdrop : l.drop (i + 4) = u ++ framed 4 us := by
      rw [← List.drop_drop, hd, framed, List.append_assoc, List.drop_append, be_length, List.drop_eq_nil_of_le (by rw [be_length]; omega)]
      simp
    have hdrop2 : l.drop (i + (4 + u.length)) = framed 4 us := by
      rw [← Nat.add_assoc, ← List.drop_drop, hdrop, List.drop_append, List.drop_length, Nat.sub_self]; simp
    match f with
    | 0 => omega
    | f + 1 =>
      obtain ⟨h1, h2⟩ := ih f (i + (4 + u.length)) (seqs ++ [⟨i, i + 4, u.length⟩]) (fun x hx => hu x (by simp [hx])) hdrop2
        (by omega) (by omega)
      constructor
      · rw [explicitLoop, if_pos (by omega), add64_eq (by omega), if_neg (by omega), (loadBE32_eq (by omega)).1, Res.val_bind, hsz,
          sub64_eq (by omega) (show l.length < 2 ^ 64 by omega), sub64_eq (by omega) (by omega), if_neg (by omega), add32_eq (by omega), add64_eq (by omega), h1]
        rw [framedEntries, Nat.add_assoc i 4]; simp
      · rw [framedEntries, List.map_cons, Nat.add_assoc i 4, h2]
        congr 1
        simp only [sliceOf]
        rw [hdrop, List.take_append, List.take_length, Nat.sub_self]; simp

/-- C16: framing any list of NAL units of less than 2^32 - 4 bytes each with 4-byte lengths, and splitting, gives them back. -/
theorem C16_roundtrip_partial (us : List (List UInt8)) (hu : ∀ u ∈ us, u.length < 2 ^ 32 - 4) (hl : (framed 4 us).length < 2 ^ 63) :
    ∃ idx, findNaluIndicesExplicitFraming (framed 4 us) = .val idx ∧ idx = framedEntries 4 0 us ∧
      idx.map (sliceOf (framed 4 us)) = us := by
  obtain ⟨h1, h2⟩ := explicitLoop_framed (framed 4 us) hl us (framed 4 us).length 0 [] hu rfl (by omega) (by omega)
  exact ⟨_, h1, rfl, h2⟩

/-- C16 fails for a NAL unit of 2^32 - 4 bytes: `4 + nal_unit_size` is computed in 32 bits and is 0, so the loop never
advances, and appends an entry on every round. -/
theorem C16_size_wraps (u r : List UInt8) (hu : u.length = 2 ^ 32 - 4) (hl : (framed 4 [u] ++ r).length < 2 ^ 63) (f : Nat) :
    explicitLoop (framed 4 [u] ++ r) f 0 [] = .bad .fuel := by
  have key : ∀ (f : Nat) (seqs : List NaluIndex), explicitLoop (framed 4 [u] ++ r) f 0 seqs = .bad .fuel := by
    have hlen : (framed 4 [u] ++ r).length = 2 ^ 32 + r.length := by simp [framed, be_length, hu]; omega
    have ht : ((framed 4 [u] ++ r).drop 0).take 4 = be 4 u.length := by
      rw [List.drop_zero, framed, List.append_assoc, List.append_assoc, List.take_append, be_length, List.take_of_length_le (by rw [be_length]; omega)]
      simp
    intro f
    induction f with
    | zero => intro seqs; rw [explicitLoop, if_pos (by omega)]
    | succ f ih =>
      intro seqs
      rw [explicitLoop, if_pos (by omega), add64_eq (by omega), if_neg (by omega), (loadBE32_eq (by omega)).1, Res.val_bind, ht,
        ofBE_be _ _ (by rw [hu]; decide), hu,
        sub64_eq (by omega) (show (framed 4 [u] ++ r).length < 2 ^ 64 by omega), sub64_eq (by omega) (by omega), if_neg (by omega)]
      have : add32 4 (2 ^ 32 - 4) = 0 := by unfold add32; rfl
      rw [this, add64_eq (by omega)]
      exact ih _
  exact key f []

/-- A stream with three- and four-byte start codes, and what is found in it. -/
def exUnits : List (Bool × List UInt8) := [(true, [0x67, 0, 0, 3, 1]), (false, [0x68, 5]), (true, [0, 2])]
theorem carriable_of {u : List UInt8} (h1 : u ≠ []) (h2 : u.getLast? ≠ some 0) (h3 : ∀ j < u.length, ¬ at3 u j 0 0 1) :
    Carriable u := by
  refine ⟨h1, fun j hj => ?_, h2⟩
  by_cases hlt : j < u.length
  · exact h3 j hlt hj
  · have := hj.1
    rw [List.getElem?_eq_none (by omega)] at this
    exact nomatch this
theorem exUnits_carriable : ∀ x ∈ exUnits, Carriable x.2 := by
  intro x hx
  simp only [exUnits, List.mem_cons, List.not_mem_nil, or_false] at hx
  rcases hx with rfl | rfl | rfl <;> exact carriable_of (by decide) (by decide) (by decide)
example : annexB exUnits = [0, 0, 0, 1, 0x67, 0, 0, 3, 1, 0, 0, 1, 0x68, 5, 0, 0, 0, 1, 0, 2] := by decide +kernel
example : findNaluIndices (annexB exUnits) = .val [⟨0, 4, 5⟩, ⟨9, 12, 2⟩, ⟨14, 18, 2⟩] := by
  rw [C13_find_exact _ (by decide)]; decide +kernel
example : ∃ idx, findNaluIndices (annexB exUnits) = .val idx ∧
    idx.map (sliceOf (annexB exUnits)) = [[0x67, 0, 0, 3, 1], [0x68, 5], [0, 2]] :=
  C15_mux_demux exUnits exUnits_carriable (by decide)
/-- Bytes that defeat a naive skip: a start code right after a byte greater than 1, and one in the last three bytes (which
is not reported). -/
example : findNaluIndices [0, 0, 2, 0, 0, 1, 9, 0, 0, 1] = .val [⟨3, 6, 4⟩] := by
  rw [C13_find_exact _ (by decide)]; decide +kernel
example : ∃ idx, findNaluIndicesExplicitFraming (framed 4 [[0x67, 1], [], [0x68]]) = .val idx ∧
    idx = [⟨0, 4, 2⟩, ⟨6, 10, 0⟩, ⟨10, 14, 1⟩] ∧ idx.map (sliceOf (framed 4 [[0x67, 1], [], [0x68]])) = [[0x67, 1], [], [0x68]] :=
  C16_roundtrip_partial _ (by simp) (by decide)
theorem exists_of_length (n : Nat) : ∃ u : List UInt8, u.length = n := ⟨List.replicate n 0x65, List.length_replicate ..⟩
/-- Such a NAL unit exists. -/
example : ∃ u, ∀ f, explicitLoop (framed 4 [u] ++ []) f 0 [] = .bad .fuel := by
  obtain ⟨u, hu⟩ := exists_of_length (2 ^ 32 - 4)
  exact ⟨u, C16_size_wraps u [] hu (by simp only [framed, List.length_append, be_length, hu, List.length_nil]; omega)⟩

end H264.Props
