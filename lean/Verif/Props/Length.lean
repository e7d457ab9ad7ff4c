import Verif.Props.Nal

/-
ParseBitstreamNALULength: C17.
-/

namespace H264.Props
open H264.Spec Prog

theorem ofBE_lt (l : List UInt8) : ofBE l < 256 ^ l.length := by
  induction l with
  | nil => simp [ofBE]
  | cons a l ih =>
    have : ofBE (a :: l) = a.toNat * 256 ^ l.length + ofBE l := by
      have := ofBE_foldl l (0 * 256 + a.toNat)
      simp only [ofBE, List.foldl_cons] at this ⊢
      rw [this]; simp
    rw [this, List.length_cons, Nat.pow_succ, Nat.mul_comm (256 ^ l.length)]
    have ha := UInt8.toNat_lt a
    have : (a.toNat + 1) * 256 ^ l.length ≤ 256 * 256 ^ l.length := Nat.mul_le_mul_right _ (by omega)
    rw [Nat.add_mul] at this
    omega

theorem readLengthLoop_eq (data : List UInt8) : ∀ (n i acc : Nat), i + n ≤ data.length → acc < 2 ^ 64 →
    readLengthLoop data n i acc = .val ((acc * 256 ^ n + ofBE ((data.drop i).take n)) % 2 ^ 64)
  | 0, i, acc, h, ha => by
    simp only [readLengthLoop, Nat.pow_zero, Nat.mul_one, List.take_zero, ofBE, List.foldl_nil, Nat.add_zero]
    rw [Nat.mod_eq_of_lt ha]
  | n + 1, i, acc, h, ha => by
    have hlt : i < data.length := by omega
    have hd : (data.drop i).take (n + 1) = data[i] :: (data.drop (i + 1)).take n := by
      rw [List.drop_eq_getElem_cons hlt, List.take_succ_cons]
    rw [readLengthLoop, load_eq hlt, Res.val_bind]
    have e : add64 (mul64 acc 256) data[i].toNat = (acc * 256 + data[i].toNat) % 2 ^ 64 := by
      unfold add64 mul64; omega
    rw [e, readLengthLoop_eq data n (i + 1) _ (by omega) (Nat.mod_lt _ (by decide)), hd]
    congr 1
    have h2 := ofBE_foldl ((data.drop (i + 1)).take n) (0 * 256 + data[i].toNat)
    have hl : ((data.drop (i + 1)).take n).length = n := by rw [List.length_take, List.length_drop]; omega
    have h3 : ofBE (data[i] :: (data.drop (i + 1)).take n) = data[i].toNat * 256 ^ n + ofBE ((data.drop (i + 1)).take n) := by
      rw [hl] at h2
      conv => lhs; rw [ofBE, List.foldl_cons, h2]
      simp
    have h4 : 256 ^ (n + 1) = 256 ^ n * 256 := Nat.pow_succ ..
    rw [h3, h4]
    generalize ofBE ((data.drop (i + 1)).take n) = z
    generalize data[i].toNat = y
    generalize 256 ^ n = p
    rw [Nat.add_mod, Nat.mul_mod, Nat.mod_mod, ← Nat.mul_mod, ← Nat.add_mod, Nat.add_mul, Nat.mul_assoc, Nat.mul_comm 256 p, Nat.add_assoc]

/-- The size of the next NAL unit: the prefix, modulo 2^64. -/
def sizeAt (data : List UInt8) (k i : Nat) : Nat := ofBE ((data.drop i).take k) % 2 ^ 64

theorem nextNalu_eq {data : List UInt8} (hl : data.length < 2 ^ 61) {k i : Nat} (hk : 0 < k) (hi : i ≤ data.length) :
    nextNalu data k i = .val (
      if data.length < i + k then none
      else if sizeAt data k i = 0 ∨ data.length < (i + k + sizeAt data k i) % 2 ^ 64 then none
      else some (i + k, sizeAt data k i)) := by
  unfold nextNalu
  rw [if_pos hk]
  unfold readNaluLength
  rw [sub64_eq hi (by omega)]
  by_cases h : data.length < i + k
  · rw [if_pos h, if_pos (by omega), Res.val_bind]
    rfl
  · rw [if_neg h, if_neg (by omega), readLengthLoop_eq data k i 0 (by omega) (by decide), Nat.zero_mul, Nat.zero_add,
      Res.val_bind, Res.pure_eq, Res.val_bind]
    change (if sizeAt data k i = 0 ∨ add64 (add64 i k) (sizeAt data k i) > data.length then _ else _) = _
    rw [add64_eq (a := i) (by omega)]
    have : add64 (i + k) (sizeAt data k i) = (i + k + sizeAt data k i) % 2 ^ 64 := by unfold add64; rfl
    rw [this, Res.pure_eq]
    split <;> rfl

/-- What the code stores as the length of a NAL unit. -/
def withLength (k : Nat) (n : NalUnit) : NalUnit := { n with length := k }

theorem parseNalUnit_huge {nd : Bool} {opts : ParsingOptions} {data : List UInt8} {off len : Nat} (h : maxVector < len) (σ : Store)
    (c : Nat) : parseNalUnit nd opts data off len σ c = .bad .terminate := by
  unfold parseNalUnit unescapeRbsp
  rw [if_pos h]
  rfl

theorem parseLengthLoop_inOrder {nd : Bool} {opts : ParsingOptions} {data : List UInt8} (hl : data.length < 2 ^ 61) {k : Nat}
    (hk : 0 < k) : ∀ (f i : Nat) (us : List (Nat × List UInt8)), data.length - i ≤ f → i ≤ data.length → LengthUnits data k i us →
      (k ≤ 8 ∨ SizeFits data k i us) → ∀ σ c ns σ' c', parseLengthLoop nd opts data k f i σ c = .val (ns, σ', c') ↔
        SizeFits data k i us ∧
          ∃ ms, InOrder (fun b => parseNalUnit nd opts b 0 b.length) us σ c ms σ' c' ∧ ns = ms.map (withLength k) := by
  have hm := lt_maxVector
  have nil : ∀ {P : Prop} (_ : P) (σ : Store) (c : Nat) (ns : List NalUnit) (σ' : Store) (c' : Nat),
      (Res.val (([] : List NalUnit), σ, c) = Res.val (ns, σ', c')) ↔
      P ∧ ∃ ms, InOrder (fun b => parseNalUnit nd opts b 0 b.length) [] σ c ms σ' c' ∧ ns = ms.map (withLength k) := by
    intro P hP σ c ns σ' c'
    simp only [Res.val.injEq, Prod.mk.injEq]
    constructor
    · rintro ⟨rfl, rfl, rfl⟩; exact ⟨hP, [], .nil _ _, rfl⟩
    · rintro ⟨_, ms, h, rfl⟩; cases h; exact ⟨rfl, rfl, rfl⟩
  have ends : ∀ (i : Nat), SizeFits data k i [] ↔ (i + k ≤ data.length → i + k + ofBE ((data.drop i).take k) < 2 ^ 64) := by
    intro i
    unfold SizeFits
    simp
  intro f
  induction f with
  | zero =>
    intro i us hf hi hu hs σ c ns σ' c'
    rw [parseLengthLoop, if_neg (by omega)]
    cases hu with
    | stop _ => exact nil ((ends i).mpr (by omega)) ..
    | next => omega
  | succ f ih =>
    intro i us hf hi hu hs σ c ns σ' c'
    cases hu with
    | stop hstop =>
      by_cases h1 : i < data.length
      · by_cases h2 : data.length < i + k
        · rw [parseLengthLoop, if_pos h1, nextNalu_eq hl hk hi, if_pos h2, Res.val_bind]
          exact nil ((ends i).mpr (by omega)) ..
        · have hst := hstop _ rfl
          by_cases h3 : i + k + ofBE ((data.drop i).take k) < 2 ^ 64
          · have hsize : sizeAt data k i = ofBE ((data.drop i).take k) := by unfold sizeAt; omega
            rw [parseLengthLoop, if_pos h1, nextNalu_eq hl hk hi, if_neg h2, if_pos (by omega), Res.val_bind]
            exact nil ((ends i).mpr (fun _ => h3)) ..
          · have hk8 : k ≤ 8 := by
              rcases hs with hs | hs
              · exact hs
              · exact absurd ((ends i).mp hs (by omega)) h3
            have hlt := ofBE_lt ((data.drop i).take k)
            have hle : 256 ^ ((data.drop i).take k).length ≤ 256 ^ 8 :=
              Nat.pow_le_pow_right (by omega) (by rw [List.length_take]; omega)
            have h256 : 256 ^ 8 = 2 ^ 64 := by decide
            have hsize : sizeAt data k i = ofBE ((data.drop i).take k) := by unfold sizeAt; omega
            rw [parseLengthLoop, if_pos h1, nextNalu_eq hl hk hi, if_neg h2, if_neg (by omega), Res.val_bind]
            dsimp only
            rw [parseNalUnit_huge (by have hmax : maxVector = 2 ^ 63 - 1 := rfl; omega), Res.bad_bind]
            constructor
            · intro h; cases h
            · rintro ⟨h, _⟩
              exact absurd ((ends i).mp h (by omega)) h3
      · rw [parseLengthLoop, if_neg h1]
        exact nil ((ends i).mpr (by omega)) ..
    | @next _ size us h3 h4 h5 hu =>
      have hsize : sizeAt data k i = size := by unfold sizeAt; rw [h3]; omega
      have htail : SizeFits data k i ((i + k, (data.drop (i + k)).take size) :: us) ↔ SizeFits data k (i + k + size) us := by
        have e : i + (((i + k, (data.drop (i + k)).take size) :: us).map (fun u => k + u.2.length)).sum =
            i + k + size + (us.map (fun u => k + u.2.length)).sum := by
          rw [List.map_cons, List.sum_cons, List.length_take, List.length_drop, Nat.min_eq_left (by omega)]
          omega
        unfold SizeFits
        rw [e]
      rw [htail] at hs ⊢
      have hu2 := ih (i + k + size) us (by omega) (by omega) hu hs
      rw [parseLengthLoop, if_pos (by omega), nextNalu_eq hl hk hi, if_neg (by omega), hsize, if_neg (by omega), Res.val_bind]
      dsimp only
      rw [parseNalUnit_local (by omega) (by omega), add64_eq (by omega)]
      generalize hb : (data.drop (i + k)).take size = bytes
      have hbl : bytes.length < 2 ^ 61 := by rw [← hb, List.length_take, List.length_drop]; omega
      cases hp : parseNalUnit nd opts bytes 0 bytes.length σ c with
      | bad e =>
        rw [Res.bad_bind]
        constructor
        · intro h; cases h
        · rintro ⟨_, ms, h, rfl⟩
          cases h with
          | skip h1 h2 => rw [hp] at h1; cases h1
          | unit h1 h2 => rw [hp] at h1; cases h1
      | val r =>
        obtain ⟨n, σ1, c1⟩ := r
        rw [Res.val_bind]
        dsimp only
        constructor
        · intro h
          cases hu : parseLengthLoop nd opts data k f (i + k + size) σ1 c1 with
          | bad e => rw [hu, Res.bad_bind] at h; cases h
          | val r =>
            obtain ⟨ns1, σ2, c2⟩ := r
            rw [hu, Res.val_bind] at h
            obtain ⟨hfit, ms, hi, rfl⟩ := (hu2 _ _ _ _ _).mp hu
            refine ⟨hfit, ?_⟩
            cases n with
            | none =>
              simp only [Res.pure_eq, Res.val.injEq, Prod.mk.injEq] at h
              obtain ⟨rfl, rfl, rfl⟩ := h
              have : σ1 = σ := parseNalUnit_none (by omega) hbl hp
              subst this
              exact ⟨ms, .skip hp hi, rfl⟩
            | some n =>
              simp only [Res.pure_eq, Res.val.injEq, Prod.mk.injEq] at h
              obtain ⟨rfl, rfl, rfl⟩ := h
              exact ⟨_, .unit hp hi, rfl⟩
        · rintro ⟨hfit, ms, h, rfl⟩
          cases h with
          | skip h1 h2 =>
            rw [hp] at h1
            simp only [Res.val.injEq, Prod.mk.injEq] at h1
            obtain ⟨rfl, rfl, rfl⟩ := h1
            rw [(hu2 _ _ _ _ _).mpr ⟨hfit, _, h2, rfl⟩, Res.val_bind]
            rfl
          | unit h1 h2 =>
            rw [hp] at h1
            simp only [Res.val.injEq, Prod.mk.injEq] at h1
            obtain ⟨rfl, rfl, rfl⟩ := h1
            rw [(hu2 _ _ _ _ _).mpr ⟨hfit, _, h2, rfl⟩, Res.val_bind]
            rfl

/-- The size fields of any data give NAL units. -/
theorem lengthUnits_total (l : List UInt8) {k : Nat} (hk : 0 < k) : ∀ (f pos : Nat), l.length - pos ≤ f → ∃ us, LengthUnits l k pos us
  | 0, pos, h => ⟨[], .stop (fun _ _ _ => by omega)⟩
  | f + 1, pos, h => by
    by_cases h1 : ofBE ((l.drop pos).take k) ≠ 0 ∧ pos + k + ofBE ((l.drop pos).take k) ≤ l.length
    · obtain ⟨us, hu⟩ := lengthUnits_total l hk f (pos + k + ofBE ((l.drop pos).take k)) (by omega)
      exact ⟨_, .next rfl h1.1 h1.2 hu⟩
    · exact ⟨[], .stop (fun size h2 h3 h4 => h1 (by subst h2; exact ⟨h3, h4⟩))⟩

/-- C17: the NAL units are those the size fields give, they are parsed in order with ParseNalUnit, and each result gets the offset
of its NAL unit.  With size fields of up to 8 bytes this is so exactly if what follows the last NAL unit can be read as a size
(otherwise the program is terminated, `C17_eight_byte_prefix`); with longer ones it is so if it can (`C17_nine_byte_prefix`).
Partial: the length stored is not that of the NAL unit but the size of the size field. -/
theorem C17_in_order_partial (nd : Bool) (opts : ParsingOptions) (data : List UInt8) (hl : data.length < 2 ^ 61) {k : Nat}
    (hk : 0 < k) {us : List (Nat × List UInt8)} (hu : LengthUnits data k 0 us) (hs : k ≤ 8 ∨ SizeFits data k 0 us)
    (σ : Store) (c : Nat) (bs : Bitstream) (σ' : Store) (c' : Nat) :
    parseBitstreamNALULength nd opts data k σ c = .val (bs, σ', c') ↔
      SizeFits data k 0 us ∧ bs.parsing_options = {} ∧ ∃ ns, InOrder (fun b => parseNalUnit nd opts b 0 b.length) us σ c ns σ' c' ∧
        bs.nal_units = ns.map (fun n => { n with length := k }) := by
  have h2 := parseLengthLoop_inOrder (nd := nd) (opts := opts) hl hk data.length 0 us (by omega) (by omega) hu hs
  unfold parseBitstreamNALULength
  constructor
  · intro h
    cases hu : parseLengthLoop nd opts data k data.length 0 σ c with
    | bad e => rw [hu, Res.bad_bind] at h; cases h
    | val r =>
      obtain ⟨ns1, σ2, c2⟩ := r
      rw [hu, Res.val_bind] at h
      simp only [Res.pure_eq, Res.val.injEq, Prod.mk.injEq] at h
      obtain ⟨rfl, rfl, rfl⟩ := h
      obtain ⟨hf, ms, h3, h4⟩ := (h2 _ _ _ _ _).mp hu
      exact ⟨hf, rfl, ms, h3, h4⟩
  · rintro ⟨hf, h3, ms, h4, h5⟩
    rw [(h2 _ _ _ _ _).mpr ⟨hf, ms, h4, rfl⟩, Res.val_bind]
    obtain ⟨po, ns⟩ := bs
    simp only at h3 h5
    subst h3 h5
    rfl

/-- C17 for size fields of 1 to 7 bytes, on any data: no condition on the sizes is needed. -/
theorem C17_in_order_upto7_partial (nd : Bool) (opts : ParsingOptions) (data : List UInt8) (hl : data.length < 2 ^ 61) {k : Nat}
    (hk : 0 < k) (hk7 : k ≤ 7) :
    ∃ us, LengthUnits data k 0 us ∧ ∀ σ c bs σ' c', parseBitstreamNALULength nd opts data k σ c = .val (bs, σ', c') ↔
      bs.parsing_options = {} ∧ ∃ ns, InOrder (fun b => parseNalUnit nd opts b 0 b.length) us σ c ns σ' c' ∧
        bs.nal_units = ns.map (fun n => { n with length := k }) := by
  obtain ⟨us, hu⟩ := lengthUnits_total data hk data.length 0 (by omega)
  have hf : SizeFits data k 0 us := by
    intro e _ he
    have h1 := ofBE_lt ((data.drop e).take k)
    have h2 : 256 ^ ((data.drop e).take k).length ≤ 256 ^ 7 :=
      Nat.pow_le_pow_right (by omega) (by rw [List.length_take]; omega)
    have h3 : 256 ^ 7 < 2 ^ 63 := by decide
    omega
  refine ⟨us, hu, fun σ c bs σ' c' => ?_⟩
  rw [C17_in_order_partial nd opts data hl hk hu (.inr hf)]
  exact ⟨fun h => h.2, fun h => ⟨hf, h⟩⟩

/-- With `nalu_length_bytes = 0` the whole input is one NAL unit. -/
theorem C17_no_prefix_partial (nd : Bool) (opts : ParsingOptions) (data : List UInt8) (hl : data.length < 2 ^ 61) (h0 : data ≠ [])
    (σ : Store) (c : Nat) (bs : Bitstream) (σ' : Store) (c' : Nat) :
    parseBitstreamNALULength nd opts data 0 σ c = .val (bs, σ', c') ↔
      bs.parsing_options = {} ∧ ∃ n, parseNalUnit nd opts data 0 data.length σ c = .val (n, σ', c') ∧
        bs.nal_units = n.toList.map (fun n => { n with offset := 0, length := 0 }) := by
  have hpos : 0 < data.length := List.length_pos_iff.mpr h0
  obtain ⟨f, hf⟩ : ∃ f, data.length = f + 1 := ⟨data.length - 1, by omega⟩
  have hend : ∀ σ c, parseLengthLoop nd opts data 0 f data.length σ c = .val ([], σ, c) := by
    intro σ c
    cases f <;> rw [parseLengthLoop, if_neg (by omega)]
  have hn : nextNalu data 0 0 = .val (some (0, data.length)) := rfl
  have hloop : parseLengthLoop nd opts data 0 data.length 0 σ c = (do
      let (r, σ, cnt) ← parseNalUnit nd opts data 0 data.length σ c
      match r with
        | none => pure ([], σ, cnt)
        | some r => pure ([{ r with offset := 0, length := 0 }], σ, cnt)) := by
    conv => lhs; arg 5; rw [hf]
    rw [parseLengthLoop, if_pos hpos, hn, Res.val_bind]
    dsimp only
    rw [add64_eq (by omega), Nat.zero_add]
    cases parseNalUnit nd opts data 0 data.length σ c with
    | bad e => rfl
    | val r =>
      obtain ⟨n, σ1, c1⟩ := r
      rw [Res.val_bind, Res.val_bind, hend, Res.val_bind]
      cases n <;> rfl
  unfold parseBitstreamNALULength
  rw [hloop]
  obtain ⟨po, ns⟩ := bs
  cases parseNalUnit nd opts data 0 data.length σ c with
  | bad e => rw [Res.bad_bind, Res.bad_bind]; simp
  | val r =>
    obtain ⟨n, σ1, c1⟩ := r
    rw [Res.val_bind]
    cases n with
    | none =>
      simp only [Res.pure_eq, Res.val_bind, Res.val.injEq, Prod.mk.injEq, Bitstream.mk.injEq]
      constructor
      · rintro ⟨⟨rfl, rfl⟩, rfl, rfl⟩; exact ⟨rfl, _, ⟨rfl, rfl, rfl⟩, rfl⟩
      · rintro ⟨rfl, n, ⟨rfl, rfl, rfl⟩, rfl⟩; exact ⟨⟨rfl, rfl⟩, rfl, rfl⟩
    | some n =>
      simp only [Res.pure_eq, Res.val_bind, Res.val.injEq, Prod.mk.injEq, Bitstream.mk.injEq]
      constructor
      · rintro ⟨⟨rfl, rfl⟩, rfl, rfl⟩; exact ⟨rfl, _, ⟨rfl, rfl, rfl⟩, rfl⟩
      · rintro ⟨rfl, n, ⟨rfl, rfl, rfl⟩, rfl⟩; exact ⟨⟨rfl, rfl⟩, rfl, rfl⟩

/-- The NAL units of a length-prefixed stream are found again. -/
theorem lengthUnits_framed (l : List UInt8) (k : Nat) : ∀ (us : List (List UInt8)) (pos : Nat),
    (∀ u ∈ us, u ≠ [] ∧ u.length < 256 ^ k) → l.drop pos = framed k us → pos ≤ l.length →
    LengthUnits l k pos (framedUnits k pos us)
  | [], pos, _, hd, hp => by
    refine .stop (fun size h1 h2 h3 => ?_)
    have : (l.drop pos).length = 0 := by rw [hd]; rfl
    rw [List.length_drop] at this
    omega
  | u :: us, pos, hu, hd, hp => by
    obtain ⟨hne, hul⟩ := hu u (by simp)
    have hlen : l.length - pos = k + u.length + (framed k us).length := by
      rw [← List.length_drop, hd]; simp [framed, be_length]; omega
    have ht : (l.drop pos).take k = be k u.length := by
      rw [hd, framed, List.append_assoc, List.take_append, be_length, List.take_of_length_le (by rw [be_length]; omega)]
      simp
    have hdrop : l.drop (pos + k) = u ++ framed k us := by
      rw [← List.drop_drop, hd, framed, List.append_assoc, List.drop_append, be_length, List.drop_eq_nil_of_le (by rw [be_length]; omega)]
      simp
    have hdrop2 : l.drop (pos + k + u.length) = framed k us := by
      rw [← List.drop_drop, hdrop, List.drop_append, List.drop_length, Nat.sub_self]; simp
    have hbytes : (l.drop (pos + k)).take u.length = u := by
      rw [hdrop, List.take_append, List.take_length, Nat.sub_self]; simp
    have h0 : u.length ≠ 0 := by simpa using hne
    have := LengthUnits.next (l := l) (k := k) (pos := pos) (size := u.length) (by rw [ht, ofBE_be _ _ hul]) h0 (by omega)
      (lengthUnits_framed l k us (pos + k + u.length) (fun x hx => hu x (by simp [hx])) hdrop2 (by omega))
    rw [hbytes] at this
    exact this

theorem LengthUnits.unique {l : List UInt8} {k pos : Nat} {us vs : List (Nat × List UInt8)} (h : LengthUnits l k pos us)
    (h' : LengthUnits l k pos vs) : us = vs := by
  induction h generalizing vs with
  | stop hs =>
    cases h' with
    | stop => rfl
    | next h1 h2 h3 h4 => exact absurd h3 (hs _ h1 h2)
  | next h1 h2 h3 _ ih =>
    cases h' with
    | stop hs => exact absurd h3 (hs _ h1 h2)
    | next g1 g2 g3 g4 =>
      rw [h1] at g1
      subst g1
      rw [ih g4]

theorem framed_end (k : Nat) : ∀ (us : List (List UInt8)) (pos : Nat),
    ((framedUnits k pos us).map (fun u => k + u.2.length)).sum = (framed k us).length
  | [], pos => rfl
  | u :: us, pos => by
    rw [framedUnits, List.map_cons, List.sum_cons, framed_end k us, framed]
    simp only [List.length_append, be_length]

/-- C17: the length-prefixed form of a list of non-empty NAL units is parsed into those NAL units, in order. -/
theorem C17_framed_partial (nd : Bool) (opts : ParsingOptions) (us : List (List UInt8)) {k : Nat} (hk : 0 < k)
    (hu : ∀ u ∈ us, u ≠ [] ∧ u.length < 256 ^ k) (hl : (framed k us).length < 2 ^ 61) (σ : Store) (c : Nat)
    (bs : Bitstream) (σ' : Store) (c' : Nat) : parseBitstreamNALULength nd opts (framed k us) k σ c = .val (bs, σ', c') ↔
      bs.parsing_options = {} ∧ ∃ ns, InOrder (fun b => parseNalUnit nd opts b 0 b.length) (framedUnits k 0 us) σ c ns σ' c' ∧
        bs.nal_units = ns.map (fun n => { n with length := k }) := by
  have hf : SizeFits (framed k us) k 0 (framedUnits k 0 us) := by
    intro e h1 h2
    rw [framed_end] at h1
    omega
  rw [C17_in_order_partial nd opts _ hl hk (lengthUnits_framed (framed k us) k us 0 hu rfl (by omega)) (.inr hf)]
  exact ⟨fun h => h.2, fun h => ⟨hf, h⟩⟩

/-- C17 fails: the reported length of a NAL unit is not its length.  Here the NAL unit is the three bytes 09 10 80 after a
4-byte prefix, and the reported length is 4. -/
theorem C17_length_wrong (nd : Bool) : ∃ n c, parseBitstreamNALULengthFresh nd { add_checksum := false }
    [0, 0, 0, 3, 0x09, 0x10, 0x80] 4 0 = .val ({ parsing_options := { add_checksum := false }, nal_units := [n] }, c) ∧
    n.offset = 4 ∧ n.length = 4 := by
  refine ⟨{ offset := 4, length := 4, parsed_length := 1, nal_unit_header := { nal_unit_type := 9 }, nal_unit_payload := {} }, 0,
    ?_, rfl, rfl⟩
  cases nd <;> decide +kernel

/-- C17 fails: an 8-byte prefix close to 2^64 makes the bounds check wrap around, and the parser then asks for a buffer of
that size: the exception leaves a noexcept function, and the program is terminated. -/
theorem C17_eight_byte_prefix (nd : Bool) (opts : ParsingOptions) (σ : Store) (c : Nat) :
    parseBitstreamNALULength nd opts [0xFF, 0xFF, 0xFF, 0xFF, 0xFF, 0xFF, 0xFF, 0xF8, 0x67] 8 σ c = .bad .terminate := by
  have h : nextNalu [0xFF, 0xFF, 0xFF, 0xFF, 0xFF, 0xFF, 0xFF, 0xF8, 0x67] 8 0 = .val (some (8, 2 ^ 64 - 8)) := by decide +kernel
  unfold parseBitstreamNALULength
  rw [show ([0xFF, 0xFF, 0xFF, 0xFF, 0xFF, 0xFF, 0xFF, 0xF8, 0x67] : List UInt8).length = 8 + 1 from rfl, parseLengthLoop,
    if_pos (by decide), h, Res.val_bind]
  dsimp only
  have : parseNalUnit nd opts [0xFF, 0xFF, 0xFF, 0xFF, 0xFF, 0xFF, 0xFF, 0xF8, 0x67] 8 (2 ^ 64 - 8) σ c = .bad .terminate := by
    unfold parseNalUnit unescapeRbsp
    rw [if_pos (by decide)]
    rfl
  rw [this]
  rfl

/-- C17 fails for size fields of more than 8 bytes: only the last 8 count.  This one says that the NAL unit has 2^64 + 1 bytes; a NAL
unit of 1 byte is returned. -/
theorem C17_nine_byte_prefix (nd : Bool) : ofBE [1, 0, 0, 0, 0, 0, 0, 0, 1] = 2 ^ 64 + 1 ∧
    LengthUnits [1, 0, 0, 0, 0, 0, 0, 0, 1, 0x0A] 9 0 [] ∧
    parseBitstreamNALULengthFresh nd { add_checksum := false } [1, 0, 0, 0, 0, 0, 0, 0, 1, 0x0A] 9 0 =
      .val ({ parsing_options := { add_checksum := false }, nal_units :=
        [{ offset := 9, length := 9, parsed_length := 1, nal_unit_header := { nal_unit_type := 10 }, nal_unit_payload := {} }] }, 0) := by
  refine ⟨by decide, .stop (fun size h1 h2 h3 => ?_), by cases nd <;> decide +kernel⟩
  have : size = 2 ^ 64 + 1 := by rw [← h1]; decide
  simp only [List.length_cons, List.length_nil] at h3
  omega

/-- A NAL unit after a size field of 8 bytes, and after one of 9. -/
example : SizeFits [0, 0, 0, 0, 0, 0, 0, 1, 0x0A] 8 0 [(8, [0x0A])] ∧ SizeFits [0, 0, 0, 0, 0, 0, 0, 0, 1, 0x0A] 9 0 [(9, [0x0A])] := by
  constructor <;> (rintro e rfl h; simp at h)

/-- Two NAL units with 2-byte prefixes; then one whose size is 0. -/
example (nd : Bool) : parseBitstreamNALULengthFresh nd { add_checksum := false } [0, 2, 0x09, 0x10, 0, 1, 0x0A, 0, 0, 0x0B] 2 0 =
    .val ({ parsing_options := { add_checksum := false }, nal_units :=
      [{ offset := 2, length := 2, parsed_length := 1, nal_unit_header := { nal_unit_type := 9 }, nal_unit_payload := {} },
       { offset := 6, length := 2, parsed_length := 1, nal_unit_header := { nal_unit_type := 10 }, nal_unit_payload := {} }] }, 0) := by
  cases nd <;> decide +kernel
example : ∀ u ∈ [[0x09, 0x10], [0x0A]], u ≠ ([] : List UInt8) ∧ u.length < 256 ^ 2 := by decide

end H264.Props
