import Verif.WorkParsers
import Verif.RtpLemmas
import Verif.Props.Nal
import Verif.Props.Escape
import Verif.Props.Split

/-
How much work NAL units, RTP packets and streams take.
-/

namespace H264
open Prog Props H264.Spec

/-! ### Bytes -/

theorem unescapeReads_le (data : List UInt8) (off length : Nat) : ∀ f i, unescapeReads data off length f i ≤ 5 * (length - i) := by
  intro f
  induction f with
  | zero => intro i; simp [unescapeReads]
  | succ f ih =>
    intro i
    unfold unescapeReads
    by_cases h : i < length
    · rw [if_pos h]
      dsimp only
      generalize decide (sub64 length i ≥ 3) = x
      generalize (load data (off + i)).passes (· == 0) = y
      generalize (load data (off + (i + 1))).passes (· == 0) = z
      generalize (load data (off + (i + 2))).passes (· == 3) = w
      have h1 := ih (i + 1 + 1 + 1)
      have h2 := ih (i + 1)
      have e : ∀ b : Bool, b.toNat ≤ 1 := by decide
      have hx := e x
      have hy := e (x && y)
      have hz := e (x && y && z)
      split <;> omega
    · rw [if_neg h]; omega

theorem findReads_le (data : List UInt8) (e : Nat) : ∀ f i, findReads data e f i ≤ 4 * (e - i) := by
  intro f
  induction f with
  | zero => intro i; simp [findReads]
  | succ f ih =>
    intro i
    unfold findReads
    by_cases h : i < e
    · rw [if_pos h]
      dsimp only
      generalize (load data (i + 2)).passes (fun c => decide (c > 1)) = x
      generalize (load data (i + 2)).passes (· == 1) = y
      generalize (load data (i + 1)).passes (· == 0) = z
      generalize (load data i).passes (· == 0) = w
      have h1 := ih (i + 3)
      have h2 := ih (i + 1)
      have e : ∀ b : Bool, b.toNat ≤ 1 := by decide
      have hy := e y
      have hz := e (y && z)
      by_cases hx : x = true
      · rw [if_pos hx]; omega
      · rw [if_neg hx]
        by_cases hw : (y && z && w) = true
        · rw [if_pos hw]; split <;> omega
        · rw [if_neg hw]; omega
    · rw [if_neg h]; omega

/-! ### NAL units -/

/-- A run, on the list of unread bits. -/
theorem run_rem {α : Type} (nd : Bool) (p : Prog α) {b : Buf} (hb : b.WF) (c : Nat) : match run nd p ⟨b, c⟩ with
    | .ok a s => s.buf.WF ∧ s.buf.bytes = b.bytes ∧ runL nd p ⟨b.rem, c⟩ = .ok a ⟨s.buf.rem, s.cnt⟩
    | .null s => s.buf.WF ∧ s.buf.bytes = b.bytes ∧ runL nd p ⟨b.rem, c⟩ = .null ⟨s.buf.rem, s.cnt⟩
    | .bad e => runL nd p ⟨b.rem, c⟩ = .bad e := by
  rw [run_eq nd p hb c]
  have hd := runL_drop nd p ⟨b.rem, c⟩
  have key : ∀ s : LSt, (∃ n, n ≤ b.rem.length ∧ s.rem = b.rem.drop n) →
      (toSt b s).buf.WF ∧ (toSt b s).buf.bytes = b.bytes ∧ s = ⟨(toSt b s).buf.rem, (toSt b s).cnt⟩ := by
    rintro s ⟨n, h1, h2⟩
    have e : toSt b s = ⟨b.adv n, s.cnt⟩ := by
      simp only [toSt]; rw [h2]; congr 2; simp; omega
    rw [e]
    refine ⟨hb.adv h1, rfl, ?_⟩
    dsimp only
    rw [Buf.rem_adv, ← h2]
  generalize runL nd p ⟨b.rem, c⟩ = r at *
  cases r with
  | ok a s => exact ⟨(key s hd.1).1, (key s hd.1).2.1, by rw [← (key s hd.1).2.2]⟩
  | null s => exact ⟨(key s hd.1).1, (key s hd.1).2.1, by rw [← (key s hd.1).2.2]⟩
  | bad e => rfl

theorem LinA.total {α : Type} {a : Nat} {p : Prog α} (h : LinA a p) (nd : Bool) (s : LSt) : workL nd p s ≤ a + 6 * s.rem.length := by
  have h1 := h nd s
  have hd := runL_drop nd p s
  generalize runL nd p s = r at *
  cases r with
  | ok x t => dsimp only at h1 hd; have := lz_le t.rem; obtain ⟨⟨n, _, h2⟩, _⟩ := hd; omega
  | null t => dsimp only at h1 hd; have := lz_le t.rem; obtain ⟨⟨n, _, h2⟩, _⟩ := hd; omega
  | bad e => exact h1

theorem checksumWordsWork_le : ∀ (f : Nat) (b : Buf), b.WF → 32 * checksumWordsWork f b ≤ b.rem.length + 32 := by
  intro f
  induction f with
  | zero => intro b _; simp [checksumWordsWork]
  | succ f ih =>
    intro b hb
    rw [checksumWordsWork, Buf.readUInt32, Buf.readBits_eq hb]
    by_cases h : 32 > b.rem.length
    · rw [if_pos (by omega), Res.work, someWork]; omega
    · rw [if_neg (by omega), Res.work, someWork]
      dsimp only
      have := ih (b.adv 32) (hb.adv (by omega))
      rw [Buf.rem_adv, List.length_drop] at this
      omega

theorem workNalUnitBuf_le (nd : Bool) (opts : ParsingOptions) (σ : Store) {b : Buf} (hb : b.WF) (c : Nat) :
    workNalUnitBuf nd opts σ ⟨b, c⟩ ≤ 7 * b.rem.length + 419 := by
  have hck : ∃ ck, unitChecksum opts b = .val (ck, b) := by
    obtain ⟨ck, hck⟩ := getNaluChecksum_total b hb
    unfold unitChecksum
    rw [hck]
    cases opts.add_checksum
    · exact ⟨none, rfl⟩
    · exact ⟨some ck, rfl⟩
  obtain ⟨ck, hck⟩ := hck
  have hw : checksumWork opts b ≤ b.rem.length + 5 := by
    unfold checksumWork
    have := checksumWordsWork_le (b.remaining + 1) b hb
    split <;> omega
  unfold workNalUnitBuf
  rw [hck, Res.work, work_eq nd _ hb]
  have h1 := lin_nalHeader nd ⟨b.rem, c⟩
  have h2 := run_rem nd parseNalHeader hb c
  generalize run nd parseNalHeader ⟨b, c⟩ = r at *
  cases r with
  | bad e => rw [h2] at h1; rw [Out.work]; dsimp only at h1 ⊢; omega
  | null s =>
    rw [h2.2.2] at h1; rw [Out.work]; dsimp only at h1 ⊢
    have := lz_le s.buf.rem
    omega
  | ok h s =>
    obtain ⟨b1, c1⟩ := s
    rw [h2.2.2] at h1; rw [Out.work, work_eq nd _ h2.1]
    have h3 := (lina_payload σ h).total nd ⟨b1.rem, c1⟩
    have h4 := runL_le h2.2.2
    dsimp only at h1 h3 h4 ⊢
    omega

theorem strip_le (l : List UInt8) : (strip l).length ≤ l.length := by
  rw [strip_eq]; exact C12_not_longer l

theorem unescape_val {data bytes : List UInt8} {off len : Nat} (hl : data.length < 2 ^ 61) (h : unescapeRbsp data off len = .val bytes) :
    bytes.length ≤ len ∧ (0 < len → off + len ≤ data.length) := by
  have hm : maxVector = 2 ^ 63 - 1 := rfl
  have hlen : len ≤ maxVector := by
    refine Nat.le_of_not_lt fun hc => ?_
    unfold unescapeRbsp at h
    rw [if_pos hc] at h
    cases h
  by_cases h0 : 0 < len
  · have hin : off + len ≤ data.length := by
      refine Nat.le_of_not_lt fun hc => ?_
      rw [C12_outside hc hlen h0] at h
      cases h
    rw [unescapeRbsp_eq hin (by omega)] at h
    obtain rfl := Res.val.inj h
    have := strip_le ((data.drop off).take len)
    rw [List.length_take] at this
    exact ⟨by omega, fun _ => hin⟩
  · obtain rfl : len = 0 := by omega
    unfold unescapeRbsp at h
    rw [if_neg (by omega), unescapeLoop, if_neg (by omega)] at h
    obtain rfl := Res.val.inj h
    exact ⟨by simp, fun h => absurd h h0⟩

theorem workNalUnit_le (nd : Bool) (opts : ParsingOptions) (data : List UInt8) (hl : data.length < 2 ^ 61) (off len : Nat) (σ : Store)
    (c : Nat) : workNalUnit nd opts data off len σ c ≤ 61 * len + 419 := by
  unfold workNalUnit
  cases hu : unescapeRbsp data off len with
  | bad e => rw [Res.work]; omega
  | val bytes =>
    rw [Res.work]
    have h1 := unescapeReads_le data off len len 0
    obtain ⟨h2, h3⟩ := unescape_val hl hu
    have hlt : bytes.length < 2 ^ 61 := by
      by_cases h0 : 0 < len
      · have := h3 h0; omega
      · omega
    by_cases hf : Fits nd bytes.length
    · rw [Buf.new_eq hf, Res.work]
      have h4 := workNalUnitBuf_le nd opts σ (Buf.start_wf hlt) c
      rw [Buf.start_rem, length_allBits] at h4
      omega
    · rw [Buf.new_bad hlt hf, Res.work]; omega

/-! ### Streams -/

theorem workUnits_le (nd : Bool) (opts : ParsingOptions) (data : List UInt8) (hl : data.length < 2 ^ 61) : ∀ ixs σ c,
    workUnits nd opts data ixs σ c ≤ (ixs.map fun e => 61 * e.payload_size + 419).sum := by
  intro ixs
  induction ixs with
  | nil => intro σ c; simp [workUnits]
  | cons ix ixs ih =>
    intro σ c
    have h := workNalUnit_le nd opts data hl ix.payload_start_offset ix.payload_size σ c
    simp only [workUnits, List.map_cons, List.sum_cons]
    cases parseNalUnit nd opts data ix.payload_start_offset ix.payload_size σ c with
    | bad e => rw [Res.work]; omega
    | val r => rw [Res.work]; have := ih r.2.1 r.2.2; omega

theorem entries_cost (l : List UInt8) : ∀ ps : List Nat, ps.Pairwise (· < ·) → (∀ p ∈ ps, isStart l p) →
    ∀ p0, ps.head? = some p0 → ((entries l ps).map fun e => 61 * e.payload_size + 419).sum + 140 * p0 ≤ 140 * l.length
  | [], _, _, _, h => by cases h
  | [p], _, hp, p0, h => by
    obtain rfl := Option.some.inj h
    obtain ⟨⟨h1, h2, h3⟩, h4⟩ := hp p (by simp)
    have : p + 2 < l.length := by
      refine Nat.lt_of_not_le fun hc => ?_
      rw [List.getElem?_eq_none hc] at h3
      cases h3
    simp only [entries, List.map_cons, List.map_nil, List.sum_cons, List.sum_nil]
    omega
  | p :: q :: r, hs, hp, p0, h => by
    obtain rfl := Option.some.inj h
    rw [List.pairwise_cons] at hs
    have h4 := start_gap (hp p (by simp)) (hp q (by simp)) (hs.1 q (by simp))
    have ih := entries_cost l (q :: r) hs.2 (fun x hx => hp x (by simp [hx])) q rfl
    have h5 : startOffset l q ≤ q := by unfold startOffset; split <;> omega
    simp only [entries, List.map_cons, List.sum_cons]
    omega

theorem workBitstream_le (nd : Bool) (opts : ParsingOptions) (data : List UInt8) (hl : data.length < 2 ^ 61) (σ : Store) (c : Nat) :
    workBitstream nd opts data σ c ≤ 144 * data.length := by
  unfold workBitstream
  rw [C13_find_exact data (by omega), Res.work]
  have h1 := workUnits_le nd opts data hl (entries data (starts data)) σ c
  have h2 : ((entries data (starts data)).map fun e => 61 * e.payload_size + 419).sum ≤ 140 * data.length := by
    cases hs : starts data with
    | nil => simp [entries]
    | cons p r =>
      have := entries_cost data (starts data) (starts_sorted data) (fun p hp => mem_starts.mp hp) p (by rw [hs]; rfl)
      rw [hs] at this
      omega
  have h3 := findReads_le data (data.length - 3) data.length 0
  split <;> omega

theorem workLengthLoop_le (nd : Bool) (opts : ParsingOptions) (data : List UInt8) (hl : data.length < 2 ^ 61) {k : Nat} (hk : 0 < k) :
    ∀ f i σ c, i ≤ data.length → workLengthLoop nd opts data k f i σ c ≤ 241 * (data.length - i) := by
  intro f
  induction f with
  | zero => intro i σ c _; simp [workLengthLoop]
  | succ f ih =>
    intro i σ c hi
    rw [workLengthLoop]
    by_cases h1 : data.length ≤ i
    · rw [if_neg (by omega)]; omega
    rw [if_pos (by omega), sub64_eq hi (by omega)]
    by_cases h2 : k > data.length - i
    · have e : nextNalu data k i = .val none := by
        unfold nextNalu readNaluLength
        rw [if_pos hk, sub64_eq hi (by omega), if_pos h2, Res.val_bind]
        rfl
      rw [if_pos h2, e, Res.work, someWork]; omega
    rw [if_neg h2]
    cases hn : nextNalu data k i with
    | bad e => rw [Res.work]; omega
    | val x =>
      cases x with
      | none => rw [Res.work, someWork]; omega
      | some x =>
        obtain ⟨j, n⟩ := x
        have hj : j = i + k ∧ n ≠ 0 := by
          unfold nextNalu at hn
          rw [if_pos hk] at hn
          cases hr : readNaluLength data i k with
          | bad e => rw [hr, Res.bad_bind] at hn; cases hn
          | val r =>
            rw [hr, Res.val_bind] at hn
            cases r with
            | none => cases hn
            | some m =>
              dsimp only at hn
              rw [add64_eq (a := i) (by omega)] at hn
              generalize add64 (i + k) m = y at hn
              split at hn
              · cases hn
              · simp only [Res.pure_eq, Res.val.injEq, Option.some.injEq, Prod.mk.injEq] at hn
                omega
        rw [Res.work, someWork]
        dsimp only
        obtain ⟨rfl, h0⟩ := hj
        have h3 := workNalUnit_le nd opts data hl (i + k) n σ c
        cases hu : unescapeRbsp data (i + k) n with
        | bad e =>
          have e1 : workNalUnit nd opts data (i + k) n σ c = 0 := by unfold workNalUnit; rw [hu, Res.work]
          have e2 : parseNalUnit nd opts data (i + k) n σ c = .bad e := by unfold parseNalUnit; rw [hu, Res.bad_bind]
          rw [e1, e2, Res.work]; omega
        | val bytes =>
          have h4 := (unescape_val hl hu).2 (by omega)
          rw [add64_eq (by omega)]
          cases parseNalUnit nd opts data (i + k) n σ c with
          | bad e => rw [Res.work]; omega
          | val r =>
            rw [Res.work]
            have := ih (i + k + n) r.2.1 r.2.2 h4
            omega

theorem workLength_le (nd : Bool) (opts : ParsingOptions) (data : List UInt8) (hl : data.length < 2 ^ 61) (k : Nat) (σ : Store)
    (c : Nat) : workBitstreamNALULength nd opts data k σ c ≤ 241 * data.length + 419 := by
  unfold workBitstreamNALULength
  by_cases hk : 0 < k
  · have := workLengthLoop_le nd opts data hl hk data.length 0 σ c (by omega)
    omega
  · obtain rfl : k = 0 := by omega
    cases hd : data.length with
    | zero => simp [workLengthLoop]
    | succ n =>
      rw [workLengthLoop, if_pos (by omega), if_neg (by omega)]
      have e : nextNalu data 0 0 = .val (some (0, data.length)) := rfl
      have h3 := workNalUnit_le nd opts data hl 0 data.length σ c
      rw [e, Res.work, someWork]
      dsimp only
      rw [add64_eq (by omega), hd] 
      cases parseNalUnit nd opts data 0 (n + 1) σ c with
      | bad e => rw [Res.work]; rw [hd] at h3; omega
      | val r =>
        rw [Res.work]
        have : workLengthLoop nd opts data 0 n (0 + (n + 1)) r.2.1 r.2.2 = 0 := by
          cases n with
          | zero => rfl
          | succ m => rw [workLengthLoop, if_neg (by omega)]
        rw [hd] at h3
        omega

/-! ### RTP packets -/

theorem lz_zeros {l : List Bool} {n : Nat} (h : n ≤ lz l) : ∃ t, l = List.replicate n false ++ t := by
  refine ⟨List.replicate (lz l - n) false ++ l.drop (lz l), ?_⟩
  rw [← List.append_assoc, List.replicate_append_replicate, show n + (lz l - n) = lz l by omega]
  exact lz_split l

theorem runL_u_zeros (nd : Bool) (n m : Nat) (t : List Bool) (c : Nat) (h1 : 1 ≤ n) (h2 : n ≤ 32) :
    runL nd (Prog.u n) ⟨List.replicate (n + m) false ++ t, c⟩ = .ok 0 ⟨List.replicate m false ++ t, c⟩ := by
  have h0 : ∀ k, bitsVal (List.replicate k false) = 0 := by
    intro k
    induction k with
    | zero => rfl
    | succ k ih => rw [List.replicate_succ, bitsVal_cons, ih]; simp
  rw [runL_u, if_neg (by simp; omega), ← List.replicate_append_replicate, List.append_assoc, List.take_left' (by simp),
    List.drop_left' (by simp), h0]

/-- A NAL unit that begins with 24 zero bits is an empty one of type 0. -/
theorem stapA_zeros (nd : Bool) (σ : Store) (s : LSt) (h : 24 ≤ lz s.rem) :
    workL nd (parseStapAUnit σ) s ≤ 5 ∧ ∃ x, runL nd (parseStapAUnit σ) s = .ok (x, σ) ⟨s.rem.drop 24, s.cnt⟩ := by
  obtain ⟨r, c⟩ := s
  obtain ⟨t, rfl⟩ := lz_zeros h
  have hd : (List.replicate 24 false ++ t).drop 24 = t := List.drop_left' (by simp)
  have e1 := runL_u_zeros nd 16 8 t c (by omega) (by omega)
  have e2 := runL_u_zeros nd 1 7 t c (by omega) (by omega)
  have e3 := runL_u_zeros nd 2 5 t c (by omega) (by omega)
  have e4 := runL_u_zeros nd 5 0 t c (by omega) (by omega)
  have hh : runL nd parseNalHeader ⟨List.replicate 8 false ++ t, c⟩ = .ok ⟨0, 0, 0, 0, 0, none⟩ ⟨t, c⟩ ∧
      workL nd parseNalHeader ⟨List.replicate 8 false ++ t, c⟩ = 3 := by
    unfold parseNalHeader
    simp only [runL_bind, workL_bind, Lin.workL_u]
    simp only [Nat.reduceAdd] at e2 e3 e4
    rw [e2]; simp only [Out.bind]
    rw [e3]; simp only
    rw [e4]; simp only
    simp [Prog.opt, workL]
  have hp : ∀ s, runL nd (parsePayload σ ⟨0, 0, 0, 0, 0, none⟩) s = .ok ({}, σ) s ∧
      workL nd (parsePayload σ ⟨0, 0, 0, 0, 0, none⟩) s = 0 := by
    intro s
    simp [parsePayload, workL]
  dsimp only
  rw [hd]
  unfold parseStapAUnit
  simp only [runL_bind, workL_bind, Lin.workL_u]
  simp only [Nat.reduceAdd] at e1
  rw [e1]
  simp only [Out.bind, runL_remaining]
  have hg : ∀ (n : Nat) s, runL nd (Prog.guard (0 * 8 ≤ n)) s = .ok () s ∧ workL nd (Prog.guard (0 * 8 ≤ n)) s = 0 := by
    intro n s
    unfold Prog.guard
    rw [if_pos (by omega)]
    exact ⟨rfl, rfl⟩
  have hr : ∀ s, workL nd Prog.remaining s = 0 := by intro s; simp [Prog.remaining, workL, Op.workL]
  rw [(hg _ _).1, (hg _ _).2, hr]
  simp only [hh.1, hh.2, (hp _).1, (hp _).2]
  exact ⟨by simp [workL], _, rfl⟩

/-- A parser that consumes at least `n` bits. -/
def Takes {α : Type} (n : Nat) (p : Prog α) : Prop := ∀ nd s a t, runL nd p s = .ok a t → t.rem.length + n ≤ s.rem.length

theorem Takes.any {α : Type} (p : Prog α) : Takes 0 p := fun _ _ _ _ h => runL_le h
theorem Takes.u (n : Nat) : Takes n (Prog.u n) := by
  intro nd s a t h
  rw [runL_u] at h
  split at h
  · cases h
  · obtain ⟨-, rfl⟩ := Out.ok.inj h
    simp; omega
theorem Takes.bind {α β : Type} {n m : Nat} {p : Prog α} {f : α → Prog β} (hp : Takes n p) (hf : ∀ x, Takes m (f x)) :
    Takes (n + m) (p >>= f) := by
  intro nd s a t h
  rw [runL_bind] at h
  cases hr : runL nd p s with
  | ok x r =>
    rw [hr] at h
    have h1 := hp nd s x r hr
    have h2 := hf x nd r a t h
    omega
  | null r => rw [hr] at h; cases h
  | bad e => rw [hr] at h; cases h
theorem takes_stapAUnit (σ : Store) : Takes 24 (parseStapAUnit σ) := by
  unfold parseStapAUnit
  refine Takes.bind (n := 16) (m := 8) (Takes.u 16) (fun _ => Takes.bind (n := 0) (m := 8) (Takes.any _) (fun _ =>
    Takes.bind (n := 0) (m := 8) (Takes.any _) (fun _ => Takes.bind (n := 8) (m := 0) ?_ (fun _ => Takes.any _))))
  unfold parseNalHeader
  exact Takes.bind (n := 1) (m := 7) (Takes.u 1) (fun _ => Takes.bind (n := 2) (m := 5) (Takes.u 2) (fun _ =>
    Takes.bind (n := 5) (m := 0) (Takes.u 5) (fun _ => Takes.any _)))

theorem lina_stapAUnit (σ : Store) : LinA 414 (parseStapAUnit σ) := by
  unfold parseStapAUnit
  exact LinA.bind (a := 0) (b := 411) (Lin.u _) (fun _ => LinA.bind (a := 0) (b := 411) Lin.remaining (fun _ =>
    LinA.bind (a := 0) (b := 411) (Lin.guard _) (fun _ => LinA.bind (a := 0) (b := 411) lin_nalHeader (fun h =>
      LinA.map (lina_payload σ h) _))))

theorem workStapA_le (nd : Bool) : ∀ f σ b c, b.WF → workStapA nd f σ ⟨b, c⟩ + 2 * lz b.rem ≤ 24 * b.rem.length + 460 := by
  intro f
  induction f with
  | zero => intro σ b c _; have := lz_le b.rem; rw [workStapA]; omega
  | succ f ih =>
    intro σ b c hb
    have hz := lz_le b.rem
    rw [workStapA]
    dsimp only
    by_cases h : b.remaining > 0
    · rw [if_pos h, work_eq nd _ hb]
      have h1 := lina_stapAUnit σ nd ⟨b.rem, c⟩
      have h2 := run_rem nd (parseStapAUnit σ) hb c
      by_cases hl : 24 ≤ lz b.rem
      · obtain ⟨h3, x, h4⟩ := stapA_zeros nd σ ⟨b.rem, c⟩ hl
        generalize run nd (parseStapAUnit σ) ⟨b, c⟩ = r at *
        cases r with
        | bad e => rw [h2] at h4; cases h4
        | null s => rw [h2.2.2] at h4; cases h4
        | ok y s =>
          obtain ⟨b1, c1⟩ := s
          rw [h2.2.2] at h4
          dsimp only at h4
          simp only [Out.ok.injEq, LSt.mk.injEq] at h4
          have h5 := ih y.2 b1 c1 h2.1
          rw [Out.work]
          rw [h4.2.1, lz_drop _ _ hl, List.length_drop] at h5
          omega
      · generalize run nd (parseStapAUnit σ) ⟨b, c⟩ = r at *
        cases r with
        | bad e => rw [h2] at h1; dsimp only at h1; rw [Out.work]; omega
        | null s =>
          rw [h2.2.2] at h1; dsimp only at h1; rw [Out.work]
          have := lz_le s.buf.rem
          omega
        | ok y s =>
          obtain ⟨b1, c1⟩ := s
          have h6 := takes_stapAUnit σ nd _ _ _ h2.2.2
          rw [h2.2.2] at h1
          have h5 := ih y.2 b1 c1 h2.1
          rw [Out.work]
          dsimp only at h1 h6
          omega
    · rw [if_neg h]; omega

theorem workRtp_le (nd : Bool) (σ : Store) (bytes : List UInt8) (hl : bytes.length < 2 ^ 61) (c : Nat) :
    workRtp nd σ ⟨Buf.start bytes, c⟩ ≤ 240 * bytes.length + 466 := by
  have hw := Buf.start_wf hl
  unfold workRtp
  rw [work_eq nd _ hw]
  have h1 := lin_nalHeader nd ⟨(Buf.start bytes).rem, c⟩
  have h2 := run_rem nd parseNalHeader hw c
  have hr : (Buf.start bytes).rem.length = 8 * bytes.length := by rw [Buf.start_rem, length_allBits]
  generalize run nd parseNalHeader ⟨Buf.start bytes, c⟩ = r at *
  cases r with
  | bad e => rw [h2] at h1; dsimp only at h1; rw [Out.work]; omega
  | null s =>
    rw [h2.2.2] at h1; dsimp only at h1; rw [Out.work]
    have := lz_le s.buf.rem
    omega
  | ok h s =>
    rw [h2.2.2] at h1
    dsimp only at h1
    rw [Out.work]
    have hseek : (s.buf.seek 0 0).2 = Buf.start bytes := by
      unfold Buf.seek
      rw [if_neg (by simp)]
      have := h2.2.1
      simp only [Buf.start] at this ⊢
      rw [this]
    rw [hseek]
    unfold workRtpBody
    split
    · rw [work_eq nd _ hw]
      have := (lina_single σ).total nd ⟨(Buf.start bytes).rem, s.cnt⟩
      dsimp only at this ⊢
      omega
    split
    · unfold workRtpStapA
      rw [work_eq nd _ hw]
      have h3 := lin_nalHeader nd ⟨(Buf.start bytes).rem, s.cnt⟩
      have h4 := run_rem nd parseNalHeader hw s.cnt
      generalize run nd parseNalHeader ⟨Buf.start bytes, s.cnt⟩ = r2 at *
      cases r2 with
      | bad e => rw [h4] at h3; dsimp only at h3; rw [Out.work]; omega
      | null s =>
        rw [h4.2.2] at h3; dsimp only at h3; rw [Out.work]
        have := lz_le s.buf.rem
        omega
      | ok h' s' =>
        obtain ⟨b1, c1⟩ := s'
        have hle := runL_le h4.2.2
        rw [h4.2.2] at h3
        rw [Out.work]
        have := workStapA_le nd (b1.remaining + 1) σ b1 c1 h4.1
        dsimp only at h3 hle ⊢
        omega
    split
    · rw [work_eq nd _ hw]
      have := (lina_fuA σ h.nal_ref_idc).total nd ⟨(Buf.start bytes).rem, s.cnt⟩
      dsimp only at this ⊢
      omega
    · omega

theorem workRtpData_le (nd : Bool) (data : List UInt8) (hl : data.length < 2 ^ 61) (off len : Nat) (σ : Store) (c : Nat) :
    workRtpData nd data off len σ c ≤ 245 * len + 466 := by
  unfold workRtpData
  cases hu : unescapeRbsp data off len with
  | bad e => rw [Res.work]; omega
  | val bytes =>
    rw [Res.work]
    have h1 := unescapeReads_le data off len len 0
    obtain ⟨h2, h3⟩ := unescape_val hl hu
    have hlt : bytes.length < 2 ^ 61 := by
      by_cases h0 : 0 < len
      · have := h3 h0; omega
      · omega
    by_cases hf : Fits nd bytes.length
    · rw [Buf.new_eq hf, Res.work]
      have h4 := workRtp_le nd σ bytes hlt c
      omega
    · rw [Buf.new_bad hlt hf, Res.work]; omega

end H264
