import Verif.RtpLemmas
import Verif.Props.Nal
import Verif.Props.Length
import Verif.Props.Headers

/-
Every parser state a program can build by calling the library: C36, C37, C38, C39.
-/

namespace H264.Props
open H264.Spec Prog

/-- The states of the parser (the stored parameter sets) a program can reach by calling the functions of the library that take
one, in any order, on any inputs (of less than 2^61 bytes), with any options, in builds with or without assertions. -/
inductive Reachable : Store → Prop
  | empty : Reachable {}
  | nalUnitBuf {nd : Bool} {opts : ParsingOptions} {σ σ' : Store} {s s' : St} {n : Option NalUnit} : Reachable σ → s.buf.WF →
      parseNalUnitBuf nd opts σ s = .val (n, σ', s') → Reachable σ'
  | nalUnitUnescaped {nd : Bool} {opts : ParsingOptions} {σ σ' : Store} {bytes : List UInt8} {c c' : Nat} {n : Option NalUnit} :
      Reachable σ → bytes.length < 2 ^ 61 → parseNalUnitUnescaped nd opts bytes σ c = .val (n, σ', c') → Reachable σ'
  | nalUnit {nd : Bool} {opts : ParsingOptions} {σ σ' : Store} {data : List UInt8} {off len c c' : Nat} {n : Option NalUnit} :
      Reachable σ → data.length < 2 ^ 61 → off + len ≤ data.length →
      parseNalUnit nd opts data off len σ c = .val (n, σ', c') → Reachable σ'
  | payload {nd : Bool} {σ σ' : Store} {h : NalHeader} {s s' : St} {p : Option Payload} : Reachable σ → s.buf.WF →
      runStore nd σ (parsePayload σ h) s = .val (p, σ', s') → Reachable σ'
  | payloadRT {nd : Bool} {σ σ' : Store} {ref type : Nat} {s s' : St} {p : Option Payload} : Reachable σ → s.buf.WF →
      runStore nd σ (parsePayloadRT σ ref type) s = .val (p, σ', s') → Reachable σ'
  | payloadData {nd : Bool} {σ σ' : Store} {h : NalHeader} {data : List UInt8} {off len c c' : Nat} {p : Option Payload} :
      Reachable σ → data.length < 2 ^ 61 → off + len ≤ data.length →
      parsePayloadData nd data off len h σ c = .val (p, σ', c') → Reachable σ'
  | bitstream {nd : Bool} {opts : ParsingOptions} {σ σ' : Store} {data : List UInt8} {c c' : Nat} {bs : Bitstream} :
      Reachable σ → data.length < 2 ^ 61 → parseBitstream nd opts data σ c = .val (bs, σ', c') → Reachable σ'
  | bitstreamNALULength {nd : Bool} {opts : ParsingOptions} {σ σ' : Store} {data : List UInt8} {k c c' : Nat} {bs : Bitstream} :
      Reachable σ → data.length < 2 ^ 61 → parseBitstreamNALULength nd opts data k σ c = .val (bs, σ', c') → Reachable σ'
  | rtp {nd : Bool} {σ σ' : Store} {s s' : St} {x : Option Rtp} : Reachable σ → s.buf.WF →
      parseRtp nd σ s = .val (x, σ', s') → Reachable σ'
  | rtpSingle {nd : Bool} {σ σ' : Store} {s s' : St} {x : Option RtpSingle} : Reachable σ → s.buf.WF →
      runStore nd σ (parseRtpSingle σ) s = .val (x, σ', s') → Reachable σ'
  | rtpStapA {nd : Bool} {σ σ' : Store} {s s' : St} {x : Option RtpStapA} : Reachable σ → s.buf.WF →
      parseRtpStapA nd σ s = .val (x, σ', s') → Reachable σ'
  | rtpFuA {nd : Bool} {σ σ' : Store} {ref : Nat} {s s' : St} {x : Option RtpFuA} : Reachable σ → s.buf.WF →
      runStore nd σ (parseRtpFuA σ ref) s = .val (x, σ', s') → Reachable σ'
  | rtpData {nd : Bool} {σ σ' : Store} {data : List UInt8} {off len c c' : Nat} {x : Option Rtp} :
      Reachable σ → data.length < 2 ^ 61 → off + len ≤ data.length →
      parseRtpData nd data off len σ c = .val (x, σ', c') → Reachable σ'
  | rtpSingleData {nd : Bool} {σ σ' : Store} {data : List UInt8} {off len c c' : Nat} {x : Option RtpSingle} :
      Reachable σ → data.length < 2 ^ 61 → off + len ≤ data.length →
      parseRtpSingleData nd data off len σ c = .val (x, σ', c') → Reachable σ'
  | rtpStapAData {nd : Bool} {σ σ' : Store} {data : List UInt8} {off len c c' : Nat} {x : Option RtpStapA} :
      Reachable σ → data.length < 2 ^ 61 → off + len ≤ data.length →
      parseRtpStapAData nd data off len σ c = .val (x, σ', c') → Reachable σ'
  | rtpFuAData {nd : Bool} {σ σ' : Store} {data : List UInt8} {off len ref c c' : Nat} {x : Option RtpFuA} :
      Reachable σ → data.length < 2 ^ 61 → off + len ≤ data.length →
      parseRtpFuAData nd data off len ref σ c = .val (x, σ', c') → Reachable σ'

/-! ### Each call keeps the state valid -/

theorem valid_empty : Store.Valid {} := ⟨by simp, by simp, by simp⟩

/-- `ParseNalUnit` on any reader: it returns, and the state stays valid. -/
theorem parseNalUnitBuf_good (nd : Bool) (opts : ParsingOptions) {σ : Store} {b : Buf} (hσ : σ.Valid) (hb : b.WF) (c : Nat) :
    ∃ n σ' s', parseNalUnitBuf nd opts σ ⟨b, c⟩ = .val (n, σ', s') ∧ σ'.Valid ∧ s'.buf.WF := by
  have hck : ∃ ck, unitChecksum opts b = .val (ck, b) := by
    obtain ⟨ck, hck⟩ := getNaluChecksum_total b hb
    unfold unitChecksum
    rw [hck]
    cases opts.add_checksum
    · exact ⟨none, rfl⟩
    · exact ⟨some ck, rfl⟩
  obtain ⟨ck, hck⟩ := hck
  rw [parseNalUnitBuf_step nd opts σ b c ck hck]
  have h1 := run_wf nd parseNalHeader hb c
  have h2 := safe_nalHeader.run nd hb c
  generalize run nd parseNalHeader ⟨b, c⟩ = r at *
  cases r with
  | bad e => exact absurd rfl (h2 e)
  | null s => exact ⟨_, _, _, rfl, hσ, h1.1⟩
  | ok h s =>
    obtain ⟨b1, c1⟩ := s
    dsimp only at h1 ⊢
    have g := runStore_good (nd := nd) (s := ⟨b1, c1⟩) h1.1 hσ (safe_payload hσ h) (fun l a τ l' => payload_valid nd hσ h)
    unfold runStore at g
    revert g
    generalize run nd (parsePayload σ h) ⟨b1, c1⟩ = r2
    cases r2 with
    | bad e => rintro ⟨_, _, _, g, _⟩; cases g
    | null s2 =>
      rintro ⟨x, σ', s', g, g2, g3⟩
      cases g
      exact ⟨_, _, _, rfl, g2, g3⟩
    | ok x s2 =>
      rintro ⟨x, σ', s', g, g2, g3⟩
      cases g
      exact ⟨_, _, _, rfl, g2, g3⟩

theorem nalUnitUnescaped_valid {nd : Bool} {opts : ParsingOptions} {σ σ' : Store} {bytes : List UInt8} {c c' : Nat}
    {n : Option NalUnit} (hσ : σ.Valid) (hl : bytes.length < 2 ^ 61)
    (h : parseNalUnitUnescaped nd opts bytes σ c = .val (n, σ', c')) : σ'.Valid := by
  by_cases hf : Fits nd bytes.length
  · rw [parseNalUnitUnescaped_eq hf] at h
    exact nalUnitL_valid hσ h
  · unfold parseNalUnitUnescaped at h
    rw [Buf.new_bad hl hf, Res.bad_bind] at h
    cases h

theorem nalUnit_valid {nd : Bool} {opts : ParsingOptions} {σ σ' : Store} {data : List UInt8} {off len c c' : Nat}
    {n : Option NalUnit} (hσ : σ.Valid) (hl : data.length < 2 ^ 61) (h : off + len ≤ data.length)
    (he : parseNalUnit nd opts data off len σ c = .val (n, σ', c')) : σ'.Valid :=
  nalUnitL_valid hσ (parseNalUnit_val h hl he)

theorem inOrder_valid {nd : Bool} {opts : ParsingOptions} {us : List (Nat × List UInt8)} {σ σ' : Store} {c c' : Nat}
    {ns : List NalUnit} (hu : ∀ u ∈ us, u.2.length < 2 ^ 61)
    (h : InOrder (fun b => parseNalUnit nd opts b 0 b.length) us σ c ns σ' c') (hσ : σ.Valid) : σ'.Valid := by
  induction h with
  | nil σ c => exact hσ
  | skip h1 h2 ih => exact ih (fun u hu' => hu u (by simp [hu'])) hσ
  | @unit off bytes _ _ _ _ _ _ _ n ns h1 h2 ih =>
    have hb : bytes.length < 2 ^ 61 := hu (off, bytes) (by simp)
    exact ih (fun u hu' => hu u (by simp [hu'])) (nalUnit_valid (data := bytes) hσ hb (by omega) h1)

theorem slice_lt {data : List UInt8} (hl : data.length < 2 ^ 61) (es : List NaluIndex) :
    ∀ u ∈ es.map (fun e => (e.payload_start_offset, sliceOf data e)), u.2.length < 2 ^ 61 := by
  intro u hu
  simp only [List.mem_map] at hu
  obtain ⟨e, _, rfl⟩ := hu
  simp only [sliceOf, List.length_take, List.length_drop]
  omega

/-- A call on `(data, length)` of a function that keeps the state valid. -/
theorem onData_valid {α : Type} {nd : Bool} {f : St → Res (α × Store × St)} {data : List UInt8} {off len : Nat}
    (h : off + len ≤ data.length) (hl : data.length < 2 ^ 61)
    (hf : ∀ s, s.buf.WF → ∃ x σ' s', f s = .val (x, σ', s') ∧ σ'.Valid ∧ s'.buf.WF) {c c' : Nat} {x : α} {σ' : Store}
    (he : onData nd f data off len c = .val (x, σ', c')) : σ'.Valid := by
  have hm := lt_maxVector
  unfold onData at he
  rw [unescapeRbsp_eq h (by omega), Res.val_bind] at he
  have hs := strip_length ((data.drop off).take len)
  have hs2 : ((data.drop off).take len).length ≤ data.length := by rw [List.length_take, List.length_drop]; omega
  by_cases hfit : Fits nd (strip ((data.drop off).take len)).length
  · rw [Buf.new_eq hfit, Res.val_bind] at he
    obtain ⟨y, τ, s', h1, h2, h3⟩ := hf ⟨Buf.start (strip ((data.drop off).take len)), c⟩ (Buf.start_wf hfit.lt)
    rw [h1, Res.val_bind] at he
    simp only [Res.pure_eq, Res.val.injEq, Prod.mk.injEq] at he
    rw [← he.2.1]; exact h2
  · rw [Buf.new_bad (by omega) hfit, Res.bad_bind] at he
    cases he

theorem parseLengthLoop_valid {nd : Bool} {opts : ParsingOptions} {data : List UInt8} (hl : data.length < 2 ^ 61) {k : Nat} :
    ∀ (f i : Nat) (σ : Store) (c : Nat) (ns : List NalUnit) (σ' : Store) (c' : Nat), (k = 0 → i = 0 ∨ data.length ≤ i) → σ.Valid →
      parseLengthLoop nd opts data k f i σ c = .val (ns, σ', c') → σ'.Valid := by
  have hm := lt_maxVector
  have hm' : maxVector = 2 ^ 63 - 1 := rfl
  intro f
  induction f with
  | zero =>
    intro i σ c ns σ' c' _ hσ h
    rw [parseLengthLoop] at h
    split at h
    · cases h
    · simp only [Res.val.injEq, Prod.mk.injEq] at h
      rw [← h.2.1]; exact hσ
  | succ f ih =>
    intro i σ c ns σ' c' hk hσ h
    rw [parseLengthLoop] at h
    split at h
    · rename_i hi
      have hnext : nextNalu data k i = .val none ∨
          ∃ j n, nextNalu data k i = .val (some (j, n)) ∧ (j + n ≤ data.length ∨ maxVector < n) ∧
            (k = 0 → add64 j n = 0 ∨ data.length ≤ add64 j n) := by
        by_cases h0 : k = 0
        · subst h0
          have : i = 0 := by have := hk rfl; omega
          subst this
          refine Or.inr ⟨0, data.length, rfl, Or.inl (by omega), fun _ => Or.inr ?_⟩
          rw [add64_eq (by omega)]; omega
        · rw [nextNalu_eq hl (by omega) (by omega)]
          split
          · exact Or.inl rfl
          · split
            · exact Or.inl rfl
            · rename_i h2
              have : sizeAt data k i < 2 ^ 64 := Nat.mod_lt _ (by decide)
              exact Or.inr ⟨_, _, rfl, by omega, fun h => absurd h h0⟩
      rcases hnext with hn | ⟨j, n, hn, hb, hz⟩
      · rw [hn, Res.val_bind] at h
        simp only [Res.pure_eq, Res.val.injEq, Prod.mk.injEq] at h
        rw [← h.2.1]; exact hσ
      · rw [hn, Res.val_bind] at h
        dsimp only at h
        rcases hb with hb | hb
        · cases hp : parseNalUnit nd opts data j n σ c with
          | bad e => rw [hp, Res.bad_bind] at h; cases h
          | val r =>
            obtain ⟨x, σ1, c1⟩ := r
            rw [hp, Res.val_bind] at h
            have hv := nalUnit_valid hσ hl hb hp
            cases hu : parseLengthLoop nd opts data k f (add64 j n) σ1 c1 with
            | bad e => rw [hu, Res.bad_bind] at h; cases h
            | val r =>
              obtain ⟨ns1, σ2, c2⟩ := r
              have := ih _ _ _ _ _ _ hz hv hu
              rw [hu, Res.val_bind] at h
              cases x with
              | none =>
                simp only [Res.pure_eq, Res.val.injEq, Prod.mk.injEq] at h
                rw [← h.2.1]; exact this
              | some x =>
                simp only [Res.pure_eq, Res.val.injEq, Prod.mk.injEq] at h
                rw [← h.2.1]; exact this
        · rw [parseNalUnit_huge hb, Res.bad_bind] at h
          cases h
    · simp only [Res.val.injEq, Prod.mk.injEq] at h
      rw [← h.2.1]; exact hσ

theorem good_valid {α S : Type} {r : Res (α × Store × S)} {x : α} {σ' : Store} {s' : S} {P : α → Store → S → Prop}
    (hg : ∃ x σ' s', r = .val (x, σ', s') ∧ σ'.Valid ∧ P x σ' s') (h : r = .val (x, σ', s')) : σ'.Valid := by
  obtain ⟨y, τ, t, h1, h2, _⟩ := hg
  rw [h1] at h
  simp only [Res.val.injEq, Prod.mk.injEq] at h
  rw [← h.2.1]; exact h2

theorem payloadRT_valid {nd : Bool} {σ σ' : Store} (hσ : σ.Valid) {ref type : Nat} {l l' : LSt} {p : Payload}
    (h : runL nd (parsePayloadRT σ ref type) l = .ok (p, σ') l') : σ'.Valid := by
  unfold parsePayloadRT at h
  exact payload_valid nd hσ _ h

theorem payloadStore_good (nd : Bool) {σ : Store} (hσ : σ.Valid) (h : NalHeader) (s : St) (hs : s.buf.WF) :
    ∃ x σ' s', runStore nd σ (parsePayload σ h) s = .val (x, σ', s') ∧ σ'.Valid ∧ s'.buf.WF :=
  runStore_good hs hσ (safe_payload hσ h) (fun _ _ _ _ h1 => payload_valid nd hσ h h1)
theorem payloadRTStore_good (nd : Bool) {σ : Store} (hσ : σ.Valid) (ref type : Nat) (s : St) (hs : s.buf.WF) :
    ∃ x σ' s', runStore nd σ (parsePayloadRT σ ref type) s = .val (x, σ', s') ∧ σ'.Valid ∧ s'.buf.WF :=
  runStore_good hs hσ (safe_payloadRT hσ ref type) (fun _ _ _ _ h1 => payloadRT_valid hσ h1)
theorem rtpSingleStore_good (nd : Bool) {σ : Store} (hσ : σ.Valid) (s : St) (hs : s.buf.WF) :
    ∃ x σ' s', runStore nd σ (parseRtpSingle σ) s = .val (x, σ', s') ∧ σ'.Valid ∧ s'.buf.WF :=
  runStore_good hs hσ (safe_rtpSingle hσ) (fun _ _ _ _ h1 => rtpSingle_valid hσ h1)
theorem rtpFuAStore_good (nd : Bool) {σ : Store} (hσ : σ.Valid) (ref : Nat) (s : St) (hs : s.buf.WF) :
    ∃ x σ' s', runStore nd σ (parseRtpFuA σ ref) s = .val (x, σ', s') ∧ σ'.Valid ∧ s'.buf.WF :=
  runStore_good hs hσ (safe_rtpFuA hσ ref) (fun _ _ _ _ h1 => rtpFuA_valid hσ h1)

theorem bitstreamNALULength_valid {nd : Bool} {opts : ParsingOptions} {σ σ' : Store} {data : List UInt8} {k c c' : Nat}
    {bs : Bitstream} (hσ : σ.Valid) (hl : data.length < 2 ^ 61)
    (he : parseBitstreamNALULength nd opts data k σ c = .val (bs, σ', c')) : σ'.Valid := by
  unfold parseBitstreamNALULength at he
  cases hu : parseLengthLoop nd opts data k data.length 0 σ c with
  | bad e => rw [hu, Res.bad_bind] at he; cases he
  | val r =>
    obtain ⟨ns, τ, c1⟩ := r
    rw [hu, Res.val_bind] at he
    simp only [Res.pure_eq, Res.val.injEq, Prod.mk.injEq] at he
    rw [← he.2.1]
    exact parseLengthLoop_valid hl _ _ _ _ _ _ _ (fun _ => Or.inl rfl) hσ hu

theorem payloadData_valid {nd : Bool} {σ σ' : Store} {h : NalHeader} {data : List UInt8} {off len c c' : Nat} {p : Option Payload}
    (hσ : σ.Valid) (hl : data.length < 2 ^ 61) (hb : off + len ≤ data.length)
    (he : parsePayloadData nd data off len h σ c = .val (p, σ', c')) : σ'.Valid := by
  unfold parsePayloadData at he
  exact onData_valid hb hl (payloadStore_good nd hσ h) he
theorem rtpData_valid {nd : Bool} {σ σ' : Store} {data : List UInt8} {off len c c' : Nat} {x : Option Rtp}
    (hσ : σ.Valid) (hl : data.length < 2 ^ 61) (hb : off + len ≤ data.length)
    (he : parseRtpData nd data off len σ c = .val (x, σ', c')) : σ'.Valid := by
  unfold parseRtpData at he
  exact onData_valid hb hl (fun s hs => parseRtp_good nd hσ hs) he
theorem rtpSingleData_valid {nd : Bool} {σ σ' : Store} {data : List UInt8} {off len c c' : Nat} {x : Option RtpSingle}
    (hσ : σ.Valid) (hl : data.length < 2 ^ 61) (hb : off + len ≤ data.length)
    (he : parseRtpSingleData nd data off len σ c = .val (x, σ', c')) : σ'.Valid := by
  unfold parseRtpSingleData at he
  exact onData_valid hb hl (rtpSingleStore_good nd hσ) he
theorem rtpStapAData_valid {nd : Bool} {σ σ' : Store} {data : List UInt8} {off len c c' : Nat} {x : Option RtpStapA}
    (hσ : σ.Valid) (hl : data.length < 2 ^ 61) (hb : off + len ≤ data.length)
    (he : parseRtpStapAData nd data off len σ c = .val (x, σ', c')) : σ'.Valid := by
  unfold parseRtpStapAData at he
  exact onData_valid hb hl (fun s hs => parseRtpStapA_good nd hσ hs) he
theorem rtpFuAData_valid {nd : Bool} {σ σ' : Store} {data : List UInt8} {off len ref c c' : Nat} {x : Option RtpFuA}
    (hσ : σ.Valid) (hl : data.length < 2 ^ 61) (hb : off + len ≤ data.length)
    (he : parseRtpFuAData nd data off len ref σ c = .val (x, σ', c')) : σ'.Valid := by
  unfold parseRtpFuAData at he
  exact onData_valid hb hl (rtpFuAStore_good nd hσ ref) he
theorem nalUnitBuf_valid {nd : Bool} {opts : ParsingOptions} {σ σ' : Store} {s s' : St} {n : Option NalUnit} (hσ : σ.Valid)
    (hb : s.buf.WF) (he : parseNalUnitBuf nd opts σ s = .val (n, σ', s')) : σ'.Valid := by
  have g := parseNalUnitBuf_good nd opts hσ hb s.cnt
  exact good_valid (P := fun _ _ s => s.buf.WF) g he

/-- C36: in every reachable state, every stored parameter set is in range and stored under its own id. -/
theorem C36_reachable_valid {σ : Store} (h : Reachable σ) : σ.Valid := by
  induction h with
  | empty => exact valid_empty
  | nalUnitBuf _ hb he ih => exact nalUnitBuf_valid ih hb he
  | nalUnitUnescaped _ hl he ih => exact nalUnitUnescaped_valid ih hl he
  | nalUnit _ hl hb he ih => exact nalUnit_valid ih hl hb he
  | payload _ hb he ih => exact good_valid (P := fun _ _ s => s.buf.WF) (payloadStore_good _ ih _ _ hb) he
  | payloadRT _ hb he ih => exact good_valid (P := fun _ _ s => s.buf.WF) (payloadRTStore_good _ ih _ _ _ hb) he
  | payloadData _ hl hb he ih => exact payloadData_valid ih hl hb he
  | bitstream _ hl he ih => exact inOrder_valid (slice_lt hl _) ((C18_in_order _ _ _ hl _ _ _ _ _).mp he).2 ih
  | bitstreamNALULength _ hl he ih => exact bitstreamNALULength_valid ih hl he
  | rtp _ hb he ih => exact good_valid (P := fun _ _ s => s.buf.WF) (parseRtp_good _ ih hb) he
  | rtpSingle _ hb he ih => exact good_valid (P := fun _ _ s => s.buf.WF) (rtpSingleStore_good _ ih _ hb) he
  | rtpStapA _ hb he ih => exact good_valid (P := fun _ _ s => s.buf.WF) (parseRtpStapA_good _ ih hb) he
  | rtpFuA _ hb he ih => exact good_valid (P := fun _ _ s => s.buf.WF) (rtpFuAStore_good _ ih _ _ hb) he
  | rtpData _ hl hb he ih => exact rtpData_valid ih hl hb he
  | rtpSingleData _ hl hb he ih => exact rtpSingleData_valid ih hl hb he
  | rtpStapAData _ hl hb he ih => exact rtpStapAData_valid ih hl hb he
  | rtpFuAData _ hl hb he ih => exact rtpFuAData_valid ih hl hb he

/-! ### No undefined behaviour -/

theorem fits_of {nd : Bool} {n m : Nat} (h : n < 2 ^ 61) (hf : nd = false → n < 2 ^ 32) (hm : m ≤ n) : Fits nd m := by
  unfold Fits
  cases nd with
  | true => rw [if_pos rfl]; omega
  | false => rw [if_neg (by decide)]; have := hf rfl; omega

/-- C37: ParseNalUnit returns: no access out of bounds, no null dereference, no invalid shift, no signed overflow, no failed
assertion, from any reachable state.  Partial: in builds with assertions the NAL unit must be shorter than 4 GiB. -/
theorem C37_nal_unit_partial {σ : Store} (hσ : Reachable σ) (nd : Bool) (opts : ParsingOptions) {data : List UInt8} {off len : Nat}
    (h : off + len ≤ data.length) (hl : data.length < 2 ^ 61) (hf : nd = false → len < 2 ^ 32) (c : Nat) :
    ∃ r, parseNalUnit nd opts data off len σ c = .val r := by
  have hfit : Fits nd (strip ((data.drop off).take len)).length := by
    refine fits_of (n := len) (by omega) hf ?_
    have := strip_length ((data.drop off).take len)
    rw [List.length_take] at this
    omega
  rw [parseNalUnit_eqL h hl, if_pos hfit]
  cases hr : nalUnitL nd opts (strip ((data.drop off).take len)) σ c with
  | val r => exact ⟨r, rfl⟩
  | bad e => exact absurd hr (nalUnitL_safe nd opts _ (C36_reachable_valid hσ) c e)

/-- In a build with assertions, a NAL unit of 4 GiB or more (once unescaped) fails the assertion in the constructor of
`BitBuffer`. -/
theorem C37_huge_nal_unit (opts : ParsingOptions) (bytes : List UInt8) (hl : bytes.length < 2 ^ 61)
    (h : 2 ^ 32 ≤ (withoutEmulation bytes).length) (σ : Store) (c : Nat) :
    parseNalUnit false opts bytes 0 bytes.length σ c = .bad .assertFail := by
  rw [parseNalUnit_eqL (by omega) hl, if_neg]
  rw [List.drop_zero, List.take_length, strip_eq]
  unfold Fits
  rw [if_neg (by decide)]
  omega

theorem inOrder_total {nd : Bool} {opts : ParsingOptions} : ∀ (us : List (Nat × List UInt8)) (σ : Store) (c : Nat), σ.Valid →
    (∀ u ∈ us, u.2.length < 2 ^ 61 ∧ (nd = false → u.2.length < 2 ^ 32)) →
    ∃ ns σ' c', InOrder (fun b => parseNalUnit nd opts b 0 b.length) us σ c ns σ' c'
  | [], σ, c, _, _ => ⟨[], σ, c, .nil σ c⟩
  | (off, bytes) :: us, σ, c, hσ, hu => by
    obtain ⟨hl, hf⟩ := hu (off, bytes) (by simp)
    dsimp only at hl hf
    have hfit : Fits nd (strip ((bytes.drop 0).take bytes.length)).length :=
      fits_of hl hf (Nat.le_trans (strip_length _) (by rw [List.length_take]; omega))
    have he := parseNalUnit_eqL (nd := nd) (data := bytes) (off := 0) (len := bytes.length) (by omega) hl opts σ c
    rw [if_pos hfit] at he
    cases hr : nalUnitL nd opts (strip ((bytes.drop 0).take bytes.length)) σ c with
    | bad e => exact absurd hr (nalUnitL_safe nd opts _ hσ c e)
    | val r =>
      obtain ⟨n, σ1, c1⟩ := r
      rw [hr] at he
      have hv := nalUnitL_valid hσ hr
      obtain ⟨ns, σ', c', h1⟩ := inOrder_total us σ1 c1 hv (fun u hu' => hu u (by simp [hu']))
      cases n with
      | none =>
        have : σ1 = σ := parseNalUnit_none (by omega) hl he
        subst this
        exact ⟨_, _, _, .skip he h1⟩
      | some n => exact ⟨_, _, _, .unit he h1⟩

/-- C37: ParseBitstream returns, from any reachable state.  Partial: in builds with assertions each NAL unit must be shorter
than 4 GiB. -/
theorem C37_bitstream_partial {σ : Store} (hσ : Reachable σ) (nd : Bool) (opts : ParsingOptions) {data : List UInt8}
    (hl : data.length < 2 ^ 61) (hf : nd = false → ∀ e ∈ entries data (starts data), e.payload_size < 2 ^ 32) (c : Nat) :
    ∃ r, parseBitstream nd opts data σ c = .val r := by
  obtain ⟨ns, σ', c', h⟩ := inOrder_total (nd := nd) (opts := opts)
    ((entries data (starts data)).map fun e => (e.payload_start_offset, sliceOf data e)) σ c (C36_reachable_valid hσ) (by
      intro u hu
      refine ⟨slice_lt hl _ u hu, fun h0 => ?_⟩
      simp only [List.mem_map] at hu
      obtain ⟨e, he, rfl⟩ := hu
      have := hf h0 e he
      simp only [sliceOf, List.length_take]
      omega)
  exact ⟨({ nal_units := ns }, σ', c'), (C18_in_order nd opts data hl σ c _ σ' c').mpr ⟨rfl, h⟩⟩

theorem lengthUnits_lt {l : List UInt8} {k pos : Nat} {us : List (Nat × List UInt8)} (h : LengthUnits l k pos us) :
    ∀ u ∈ us, u.2.length ≤ l.length := by
  induction h with
  | stop => simp
  | next h1 h2 h3 _ ih =>
    intro u hu
    simp only [List.mem_cons] at hu
    rcases hu with rfl | hu
    · simp only [List.length_take, List.length_drop]; omega
    · exact ih u hu

/-- C37: ParseBitstreamNALULength with prefixes of at most 7 bytes returns, from any reachable state.  Partial: not for 8 bytes
and more (C17_eight_byte_prefix), and in builds with assertions the data must be shorter than 4 GiB. -/
theorem C37_bitstreamNALULength_partial {σ : Store} (hσ : Reachable σ) (nd : Bool) (opts : ParsingOptions) {data : List UInt8}
    (hl : data.length < 2 ^ 61) (hf : nd = false → data.length < 2 ^ 32) {k : Nat} (hk : k ≤ 7) (c : Nat) :
    ∃ r, parseBitstreamNALULength nd opts data k σ c = .val r := by
  by_cases h0 : k = 0
  · subst h0
    by_cases hd : data = []
    · subst hd; exact ⟨_, rfl⟩
    · obtain ⟨⟨n, σ', c'⟩, h⟩ := C37_nal_unit_partial hσ nd opts (data := data) (off := 0) (len := data.length) (by omega) hl hf c
      exact ⟨({ nal_units := n.toList.map fun n => { n with offset := 0, length := 0 } }, σ', c'),
        (C17_no_prefix_partial nd opts data hl hd σ c _ σ' c').mpr ⟨rfl, n, h, rfl⟩⟩
  · obtain ⟨us, h1, h2⟩ := C17_in_order_upto7_partial nd opts data hl (k := k) (by omega) hk
    obtain ⟨ns, σ', c', h⟩ := inOrder_total (nd := nd) (opts := opts) us σ c (C36_reachable_valid hσ) (by
      intro u hu
      have := lengthUnits_lt h1 u hu
      exact ⟨by omega, fun h => by have := hf h; omega⟩)
    exact ⟨({ nal_units := ns.map fun n => { n with length := k } }, σ', c'), (h2 σ c _ σ' c').mpr ⟨rfl, ns, h, rfl⟩⟩

/-- C37: with size fields of more than 7 bytes ParseBitstreamNALULength returns if what follows the last NAL unit can be read as a
size, and with 8 bytes only then. -/
theorem C37_long_sizes {σ : Store} (hσ : Reachable σ) (nd : Bool) (opts : ParsingOptions) {data : List UInt8}
    (hl : data.length < 2 ^ 61) (hf : nd = false → data.length < 2 ^ 32) {k : Nat} (hk : 0 < k) {us : List (Nat × List UInt8)}
    (hu : LengthUnits data k 0 us) (c : Nat) :
    (SizeFits data k 0 us → ∃ r, parseBitstreamNALULength nd opts data k σ c = .val r) ∧
    (k ≤ 8 → (∃ r, parseBitstreamNALULength nd opts data k σ c = .val r) → SizeFits data k 0 us) := by
  constructor
  · intro hs
    obtain ⟨ns, σ', c', h⟩ := inOrder_total (nd := nd) (opts := opts) us σ c (C36_reachable_valid hσ) (by
      intro u hu'
      have := lengthUnits_lt hu u hu'
      exact ⟨by omega, fun h => by have := hf h; omega⟩)
    exact ⟨({ nal_units := ns.map fun n => { n with length := k } }, σ', c'),
      (C17_in_order_partial nd opts data hl hk hu (.inr hs) σ c _ σ' c').mpr ⟨hs, rfl, ns, h, rfl⟩⟩
  · rintro hk8 ⟨⟨bs, σ', c'⟩, h⟩
    exact ((C17_in_order_partial nd opts data hl hk hu (.inl hk8) σ c bs σ' c').mp h).1

/-- C37: the functions that work on a `BitBuffer` return, whatever its position, from any reachable state. -/
theorem C37_readers {σ : Store} (hσ : Reachable σ) (nd : Bool) (opts : ParsingOptions) (h : NalHeader) (ref type : Nat)
    {s : St} (hs : s.buf.WF) :
    (∃ r, parseNalUnitBuf nd opts σ s = .val r) ∧ (∃ r, runStore nd σ (parsePayload σ h) s = .val r) ∧
    (∃ r, runStore nd σ (parsePayloadRT σ ref type) s = .val r) ∧
    (∃ r, parseRtp nd σ s = .val r) ∧ (∃ r, runStore nd σ (parseRtpSingle σ) s = .val r) ∧
    (∃ r, parseRtpStapA nd σ s = .val r) ∧ (∃ r, runStore nd σ (parseRtpFuA σ ref) s = .val r) := by
  have hv := C36_reachable_valid hσ
  refine ⟨?_, ?_, ?_, ?_, ?_, ?_, ?_⟩
  · obtain ⟨x, y, z, h1, _⟩ := parseNalUnitBuf_good nd opts hv hs s.cnt; exact ⟨_, h1⟩
  · obtain ⟨x, y, z, h1, _⟩ := payloadStore_good nd hv h s hs; exact ⟨_, h1⟩
  · obtain ⟨x, y, z, h1, _⟩ := payloadRTStore_good nd hv ref type s hs; exact ⟨_, h1⟩
  · obtain ⟨x, y, z, h1, _⟩ := parseRtp_good nd hv hs; exact ⟨_, h1⟩
  · obtain ⟨x, y, z, h1, _⟩ := rtpSingleStore_good nd hv s hs; exact ⟨_, h1⟩
  · obtain ⟨x, y, z, h1, _⟩ := parseRtpStapA_good nd hv hs; exact ⟨_, h1⟩
  · obtain ⟨x, y, z, h1, _⟩ := rtpFuAStore_good nd hv ref s hs; exact ⟨_, h1⟩

theorem onData_returns {α : Type} {nd : Bool} {f : St → Res (α × Store × St)} {data : List UInt8} {off len : Nat}
    (h : off + len ≤ data.length) (hl : data.length < 2 ^ 61) (hf : nd = false → len < 2 ^ 32)
    (hg : ∀ s, s.buf.WF → ∃ x σ' s', f s = .val (x, σ', s') ∧ σ'.Valid ∧ s'.buf.WF) (c : Nat) :
    ∃ r, onData nd f data off len c = .val r := by
  obtain ⟨x, σ', c', h1, _⟩ := onData_good (nd := nd) (f := f) h hl (fits_of (by omega) hf (Nat.le_refl _)) hg c
  exact ⟨_, h1⟩

/-- C37: the RTP and payload parsers on a packet return, from any reachable state.  Partial: in builds with assertions the
packet must be shorter than 4 GiB. -/
theorem C37_packets_partial {σ : Store} (hσ : Reachable σ) (nd : Bool) (hd : NalHeader) (ref : Nat)
    {data : List UInt8} {off len : Nat} (h : off + len ≤ data.length) (hl : data.length < 2 ^ 61) (hf : nd = false → len < 2 ^ 32)
    (c : Nat) :
    (∃ r, parsePayloadData nd data off len hd σ c = .val r) ∧ (∃ r, parseRtpData nd data off len σ c = .val r) ∧
    (∃ r, parseRtpSingleData nd data off len σ c = .val r) ∧ (∃ r, parseRtpStapAData nd data off len σ c = .val r) ∧
    (∃ r, parseRtpFuAData nd data off len ref σ c = .val r) := by
  have hv := C36_reachable_valid hσ
  unfold parsePayloadData parseRtpData parseRtpSingleData parseRtpStapAData parseRtpFuAData
  exact ⟨onData_returns h hl hf (payloadStore_good nd hv hd) c, onData_returns h hl hf (fun s hs => parseRtp_good nd hv hs) c,
    onData_returns h hl hf (rtpSingleStore_good nd hv) c, onData_returns h hl hf (fun s hs => parseRtpStapA_good nd hv hs) c,
    onData_returns h hl hf (rtpFuAStore_good nd hv ref) c⟩

/-! ### parsed_length -/

/-- C38: at least one byte and at most the whole unescaped NAL unit has been read. -/
theorem C38_parsed_length {nd : Bool} {opts : ParsingOptions} {data : List UInt8} {off len : Nat} (h : off + len ≤ data.length)
    (hl : data.length < 2 ^ 61) {σ σ' : Store} {c c' : Nat} {n : NalUnit}
    (he : parseNalUnit nd opts data off len σ c = .val (some n, σ', c')) :
    1 ≤ n.parsed_length ∧ n.parsed_length ≤ (withoutEmulation ((data.drop off).take len)).length ∧
    (withoutEmulation ((data.drop off).take len)).length ≤ len := by
  have hv := parseNalUnit_val h hl he
  have hs := strip_length ((data.drop off).take len)
  rw [List.length_take] at hs
  rw [strip_eq] at hv hs
  generalize withoutEmulation ((data.drop off).take len) = bytes at *
  rcases nalUnitL_cases hv with ⟨h1, _⟩ | ⟨hd, s, p, s', h1, h2, h3, _⟩
  · cases h1
  cases h1
  dsimp only
  obtain ⟨ok, r, h4, rfl⟩ := (codec_nalHeader nd (allBits bytes) c hd s).mp h2
  have h6 := C22_nalHeader_size ok
  have h7 := congrArg List.length h4
  rw [List.length_append, h6, length_allBits] at h7
  have hd := runL_drop nd (parsePayload σ hd) ⟨r, c⟩
  rw [h3] at hd
  obtain ⟨⟨m, h8, h9⟩, _⟩ := hd
  dsimp only at h8 h9
  rw [h9, List.length_drop]
  split at h7 <;> omega

theorem inOrder_mem {parse : List UInt8 → Store → Nat → Res (Option NalUnit × Store × Nat)} {us : List (Nat × List UInt8)}
    {σ σ' : Store} {c c' : Nat} {ns : List NalUnit} (h : InOrder parse us σ c ns σ' c') : ∀ n ∈ ns, ∃ off bytes,
      (off, bytes) ∈ us ∧ ∃ τ d m τ' d', parse bytes τ d = .val (some m, τ', d') ∧
        n = { m with offset := off, length := bytes.length } := by
  induction h with
  | nil => simp
  | skip _ _ ih =>
    intro n hn
    obtain ⟨off, bytes, h1, h2⟩ := ih n hn
    exact ⟨off, bytes, by simp [h1], h2⟩
  | unit h1 _ ih =>
    intro n hn
    simp only [List.mem_cons] at hn
    rcases hn with rfl | hn
    · exact ⟨_, _, by simp, _, _, _, _, _, h1, rfl⟩
    · obtain ⟨off, bytes, h1, h2⟩ := ih n hn
      exact ⟨off, bytes, by simp [h1], h2⟩

/-- C38 for every NAL unit ParseBitstream returns: `offset` and `length` lie inside the input, and `parsed_length` is at least 1
and at most `length`. -/
theorem C38_bitstream {nd : Bool} {opts : ParsingOptions} {data : List UInt8} (hl : data.length < 2 ^ 61) {σ σ' : Store}
    {c c' : Nat} {bs : Bitstream} (h : parseBitstream nd opts data σ c = .val (bs, σ', c')) : ∀ n ∈ bs.nal_units,
      n.offset + n.length ≤ data.length ∧ 1 ≤ n.parsed_length ∧
      n.parsed_length ≤ (withoutEmulation ((data.drop n.offset).take n.length)).length ∧
      (withoutEmulation ((data.drop n.offset).take n.length)).length ≤ n.length := by
  intro n hn
  obtain ⟨off, bytes, h1, τ, d, m, τ', d', h2, rfl⟩ := inOrder_mem ((C18_in_order nd opts data hl σ c bs σ' c').mp h).2 n hn
  simp only [List.mem_map, Prod.mk.injEq] at h1
  obtain ⟨e, he, rfl, rfl⟩ := h1
  have hin := (entries_inside data _ (starts_sorted data) (fun p hp => mem_starts.mp hp) e he).2.2
  have hlen : (sliceOf data e).length = e.payload_size := by
    simp only [sliceOf, List.length_take, List.length_drop]; omega
  have := C38_parsed_length (data := sliceOf data e) (by omega) (by omega) h2
  dsimp only
  rw [List.drop_zero, List.take_length] at this
  rw [hlen] at this ⊢
  exact ⟨hin, this⟩

/-! ### Termination -/

theorem parseNalUnit_outcome {σ : Store} (hσ : σ.Valid) (nd : Bool) (opts : ParsingOptions) {data : List UInt8} {off len : Nat}
    (h : off + len ≤ data.length) (hl : data.length < 2 ^ 61) (c : Nat) :
    (∃ r, parseNalUnit nd opts data off len σ c = .val r) ∨ parseNalUnit nd opts data off len σ c = .bad .assertFail := by
  rw [parseNalUnit_eqL h hl]
  split
  · cases hr : nalUnitL nd opts (strip ((data.drop off).take len)) σ c with
    | val r => exact Or.inl ⟨r, rfl⟩
    | bad e => exact absurd hr (nalUnitL_safe nd opts _ hσ c e)
  · exact Or.inr rfl

theorem parseUnits_no_fuel {nd : Bool} {opts : ParsingOptions} {data : List UInt8} (hl : data.length < 2 ^ 61) :
    ∀ (ixs : List NaluIndex), (∀ e ∈ ixs, e.payload_start_offset + e.payload_size ≤ data.length) →
    ∀ (σ : Store) (c : Nat), σ.Valid → parseUnits nd opts data ixs σ c ≠ .bad .fuel
  | [], _, σ, c, _ => by simp [parseUnits]
  | ix :: ixs, hin, σ, c, hσ => by
    have hix := hin ix (by simp)
    rw [parseUnits]
    rcases parseNalUnit_outcome hσ nd opts hix hl c with ⟨⟨n, σ1, c1⟩, h⟩ | h
    · have ih := parseUnits_no_fuel (nd := nd) (opts := opts) hl ixs (fun e he => hin e (by simp [he])) σ1 c1 (nalUnit_valid hσ hl hix h)
      rw [h, Res.val_bind]
      dsimp only
      revert ih
      cases parseUnits nd opts data ixs σ1 c1 with
      | bad e => rw [Res.bad_bind]; intro ih h; cases h; exact ih rfl
      | val r => intro _; rw [Res.val_bind]; cases n <;> simp [Res.pure_eq]
    · rw [h, Res.bad_bind]; simp

theorem parseLengthLoop_no_fuel {nd : Bool} {opts : ParsingOptions} {data : List UInt8} (hl : data.length < 2 ^ 61) {k : Nat} :
    ∀ (f i : Nat) (σ : Store) (c : Nat), (k = 0 → i = 0 ∨ data.length ≤ i) → data.length - i ≤ f → σ.Valid →
      parseLengthLoop nd opts data k f i σ c ≠ .bad .fuel := by
  have hm := lt_maxVector
  have hm' : maxVector = 2 ^ 63 - 1 := rfl
  intro f
  induction f with
  | zero =>
    intro i σ c _ hf _
    rw [parseLengthLoop, if_neg (by omega)]
    simp
  | succ f ih =>
    intro i σ c hk hf hσ
    rw [parseLengthLoop]
    split
    · rename_i hi
      have hnext : nextNalu data k i = .val none ∨
          ∃ j n, nextNalu data k i = .val (some (j, n)) ∧ ((i < j + n ∧ j + n ≤ data.length) ∨ maxVector < n) ∧
            (k = 0 → add64 j n = 0 ∨ data.length ≤ add64 j n) := by
        by_cases h0 : k = 0
        · subst h0
          have : i = 0 := by have := hk rfl; omega
          subst this
          refine Or.inr ⟨0, data.length, rfl, Or.inl (by omega), fun _ => Or.inr ?_⟩
          rw [add64_eq (by omega)]; omega
        · rw [nextNalu_eq hl (by omega) (by omega)]
          split
          · exact Or.inl rfl
          · split
            · exact Or.inl rfl
            · rename_i h2
              have : sizeAt data k i < 2 ^ 64 := Nat.mod_lt _ (by decide)
              exact Or.inr ⟨_, _, rfl, by omega, fun h => absurd h h0⟩
      rcases hnext with hn | ⟨j, n, hn, hb, hz⟩
      · rw [hn, Res.val_bind]
        simp [Res.pure_eq]
      · rw [hn, Res.val_bind]
        dsimp only
        rcases hb with hb | hb
        · rcases parseNalUnit_outcome hσ nd opts hb.2 hl c with ⟨⟨x, σ1, c1⟩, h⟩ | h
          · have := ih (add64 j n) σ1 c1 hz (by rw [add64_eq (by omega)]; omega) (nalUnit_valid hσ hl hb.2 h)
            rw [h, Res.val_bind]
            dsimp only
            revert this
            cases parseLengthLoop nd opts data k f (add64 j n) σ1 c1 with
            | bad e => rw [Res.bad_bind]; intro ih h; cases h; exact ih rfl
            | val r => intro _; rw [Res.val_bind]; cases x <;> simp [Res.pure_eq]
          · rw [h, Res.bad_bind]; simp
        · rw [parseNalUnit_huge hb, Res.bad_bind]
          simp
    · simp

/-- C39: every call ends.  In the model a loop whose number of iterations depends on the data is given as fuel the number of bits
or bytes available, and `.bad .fuel` is the outcome of a loop that would need one iteration more; it never happens, for any data
(also data that fails the 4 GiB assertion), for ParseNalUnit, ParseBitstream and ParseBitstreamNALULength with any prefix size.  (The
functions on a reader and on RTP packets end by C37_readers and C37_packets_partial.) -/
theorem C39_terminates {σ : Store} (hσ : Reachable σ) (nd : Bool) (opts : ParsingOptions) {data : List UInt8}
    (hl : data.length < 2 ^ 61) (c : Nat) :
    (∀ off len, off + len ≤ data.length → parseNalUnit nd opts data off len σ c ≠ .bad .fuel) ∧
    parseBitstream nd opts data σ c ≠ .bad .fuel ∧ ∀ k, parseBitstreamNALULength nd opts data k σ c ≠ .bad .fuel := by
  have hv := C36_reachable_valid hσ
  refine ⟨fun off len h => ?_, ?_, fun k => ?_⟩
  · rcases parseNalUnit_outcome hv nd opts h hl c with ⟨r, h⟩ | h <;> rw [h] <;> simp
  · unfold parseBitstream
    rw [C13_find_exact data (by omega), Res.val_bind]
    have := parseUnits_no_fuel (nd := nd) (opts := opts) hl (entries data (starts data))
      (fun e he => (entries_inside data _ (starts_sorted data) (fun p hp => mem_starts.mp hp) e he).2.2) σ c hv
    revert this
    cases parseUnits nd opts data (entries data (starts data)) σ c with
    | bad e => rw [Res.bad_bind]; intro ih h; cases h; exact ih rfl
    | val r => intro _; rw [Res.val_bind]; simp [Res.pure_eq]
  · unfold parseBitstreamNALULength
    have := parseLengthLoop_no_fuel (nd := nd) (opts := opts) hl (k := k) data.length 0 σ c (fun _ => Or.inl rfl) (by omega) hv
    revert this
    cases parseLengthLoop nd opts data k data.length 0 σ c with
    | bad e => rw [Res.bad_bind]; intro ih h; cases h; exact ih rfl
    | val r => intro _; rw [Res.val_bind]; simp [Res.pure_eq]

/-! ### Example: a reachable state with parameter sets in it -/

theorem exReach : ∃ σ : Store, Reachable σ ∧ (σ.sps 0).isSome ∧ (σ.pps 0).isSome := by
  obtain ⟨⟨bs, σ, c⟩, h, h2⟩ := ex601_parse
  simp only [Bool.and_eq_true] at h2
  exact ⟨σ, .bitstream .empty (by decide) h, h2.1.2, h2.2⟩
/-- C36 on it. -/
example : ∃ σ : Store, σ.Valid ∧ (σ.sps 0).isSome ∧ (σ.pps 0).isSome := by
  obtain ⟨σ, h, h2⟩ := exReach
  exact ⟨σ, C36_reachable_valid h, h2⟩
/-- C37: the IDR slice of the stream, and garbage, with that state. -/
example : ∃ σ : Store, (σ.pps 0).isSome ∧ (∃ r, parseNalUnit false {} ((ex601.drop 42).take 22) 0 22 σ 0 = .val r) ∧
    (∃ r, parseBitstream false {} [0, 0, 1, 0x65, 0xff, 0, 0, 0, 1, 0x68, 0] σ 0 = .val r) ∧
    (∃ r, parseBitstreamNALULength false {} [0, 2, 0x65, 0xff, 0, 9, 1] 2 σ 0 = .val r) := by
  obtain ⟨σ, h, _, h2⟩ := exReach
  refine ⟨σ, h2, C37_nal_unit_partial h false {} (by decide +kernel) (by decide +kernel) (by decide) 0,
    C37_bitstream_partial h false {} (by decide +kernel) (fun _ => by decide +kernel) 0,
    C37_bitstreamNALULength_partial h false {} (by decide +kernel) (fun _ => by decide +kernel) (by decide) 0⟩
/-- C38: the parsed lengths of the stream are those the unit test expects. -/
example : ∃ bs : Bitstream, (∀ n ∈ bs.nal_units, n.offset + n.length ≤ ex601.length ∧ 1 ≤ n.parsed_length) ∧
    bs.nal_units.map (·.parsed_length) = [22, 6, 5, 5] := by
  obtain ⟨⟨bs, σ, c⟩, h, h2⟩ := ex601_parse
  refine ⟨bs, fun n hn => ⟨(C38_bitstream (by decide) h n hn).1, (C38_bitstream (by decide) h n hn).2.1⟩, ?_⟩
  simp only [Bool.and_eq_true, beq_iff_eq] at h2
  have := congrArg (List.map (fun x : Nat × Nat × Nat => x.2.2)) h2.1.1.1.1.1
  simpa [List.map_map, Function.comp_def] using this
theorem exNoEmu (n : Nat) : withoutEmulation (List.replicate n 0x65) = List.replicate n 0x65 := by
  rw [← strip_eq]
  induction n with
  | zero => rfl
  | succ n ih => rw [List.replicate_succ, strip_miss (by rintro ⟨h, _⟩; exact absurd h (by decide)), ih]
/-- C37_huge_nal_unit: such a NAL unit exists. -/
example : ∃ bytes : List UInt8, bytes.length < 2 ^ 61 ∧ 2 ^ 32 ≤ (withoutEmulation bytes).length := by
  obtain ⟨n, hn⟩ : ∃ n, n = 2 ^ 32 := ⟨_, rfl⟩
  refine ⟨List.replicate n 0x65, by rw [List.length_replicate]; omega, ?_⟩
  rw [exNoEmu, List.length_replicate]
  omega

end H264.Props
