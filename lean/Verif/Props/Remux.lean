import Verif.Spec.Remux
import Verif.Props.StoreRtp
import Verif.Props.Stream

/-
C70: what is parsed does not depend on the container.
-/

namespace H264.Props
open H264 H264.Spec

/-- The part of a NAL unit that does not depend on where it is. -/
def contentOf (n : NalUnit) : Nat × Option NaluChecksum × NalHeader × Payload :=
  (n.parsed_length, n.checksum, n.nal_unit_header, n.nal_unit_payload)

/-- The offsets do not matter. -/
theorem inOrder_contents {parse : List UInt8 → Store → Nat → Res (Option NalUnit × Store × Nat)} {us : List (Nat × List UInt8)} {σ σ' : Store}
    {c c' : Nat} {ns : List NalUnit} (h : InOrder parse us σ c ns σ' c') : ∀ {vs : List (Nat × List UInt8)}, us.map (·.2) = vs.map (·.2) →
      ∃ ms, InOrder parse vs σ c ms σ' c' ∧ ms.map contentOf = ns.map contentOf := by
  induction h with
  | nil σ c =>
    intro vs e
    cases vs with
    | nil => exact ⟨[], .nil σ c, rfl⟩
    | cons v vs => cases e
  | skip h1 _ ih =>
    intro vs e
    cases vs with
    | nil => cases e
    | cons v vs =>
      obtain ⟨off, b⟩ := v
      simp only [List.map_cons, List.cons.injEq] at e
      obtain ⟨rfl, e⟩ := e
      obtain ⟨ms, h2, h3⟩ := ih e
      exact ⟨ms, .skip h1 h2, h3⟩
  | unit h1 _ ih =>
    intro vs e
    cases vs with
    | nil => cases e
    | cons v vs =>
      obtain ⟨off, b⟩ := v
      simp only [List.map_cons, List.cons.injEq] at e
      obtain ⟨rfl, e⟩ := e
      obtain ⟨ms, h2, h3⟩ := ih e
      exact ⟨_, .unit h1 h2, by rw [List.map_cons, List.map_cons, h3]; rfl⟩

/-- C70: the lengths of the start codes do not matter. -/
theorem C70_start_codes (nd : Bool) (opts : ParsingOptions) {us vs : List (Bool × List UInt8)} (he : us.map (·.2) = vs.map (·.2))
    (hu : ∀ x ∈ us, Carriable x.2) (hl : (annexB us).length < 2 ^ 61) (hl' : (annexB vs).length < 2 ^ 61) (σ : Store) (c : Nat)
    (σ' : Store) (c' : Nat) (x : List (Nat × Option NaluChecksum × NalHeader × Payload)) :
    (∃ bs, parseBitstream nd opts (annexB us) σ c = .val (bs, σ', c') ∧ contents bs = x) ↔
      ∃ bs, parseBitstream nd opts (annexB vs) σ c = .val (bs, σ', c') ∧ contents bs = x := by
  have hv : ∀ y ∈ vs, Carriable y.2 := by
    intro y hy
    have : y.2 ∈ us.map (·.2) := by rw [he]; exact List.mem_map_of_mem hy
    obtain ⟨z, hz, e⟩ := List.mem_map.mp this
    rw [← e]
    exact hu z hz
  constructor
  · rintro ⟨bs, h, rfl⟩
    obtain ⟨_, h1⟩ := (C18_annexB nd opts us hu hl σ c bs σ' c').mp h
    obtain ⟨ms, h2, h3⟩ := inOrder_contents h1 (vs := annexBUnits 0 vs) (by rw [annexBUnits_snd, annexBUnits_snd, he])
    exact ⟨⟨{}, ms⟩, (C18_annexB nd opts vs hv hl' σ c _ σ' c').mpr ⟨rfl, h2⟩, h3⟩
  · rintro ⟨bs, h, rfl⟩
    obtain ⟨_, h1⟩ := (C18_annexB nd opts vs hv hl' σ c bs σ' c').mp h
    obtain ⟨ms, h2, h3⟩ := inOrder_contents h1 (vs := annexBUnits 0 us) (by rw [annexBUnits_snd, annexBUnits_snd, he])
    exact ⟨⟨{}, ms⟩, (C18_annexB nd opts us hu hl σ c _ σ' c').mpr ⟨rfl, h2⟩, h3⟩

/-- C70: start codes or size fields of any length do not matter. -/
theorem C70_sizes (nd : Bool) (opts : ParsingOptions) {us : List (Bool × List UInt8)} (hu : ∀ x ∈ us, Carriable x.2)
    (hl : (annexB us).length < 2 ^ 61) {k : Nat} (hk : 0 < k) (hs : ∀ x ∈ us, x.2.length < 256 ^ k)
    (hl' : (framed k (us.map (·.2))).length < 2 ^ 61) (σ : Store) (c : Nat)
    (σ' : Store) (c' : Nat) (x : List (Nat × Option NaluChecksum × NalHeader × Payload)) :
    (∃ bs, parseBitstream nd opts (annexB us) σ c = .val (bs, σ', c') ∧ contents bs = x) ↔
      ∃ bs, parseBitstreamNALULength nd opts (framed k (us.map (·.2))) k σ c = .val (bs, σ', c') ∧ contents bs = x := by
  have hv : ∀ u ∈ us.map (·.2), u ≠ [] ∧ u.length < 256 ^ k := by
    intro u hm
    obtain ⟨z, hz, rfl⟩ := List.mem_map.mp hm
    exact ⟨(hu z hz).nonempty, hs z hz⟩
  constructor
  · rintro ⟨bs, h, rfl⟩
    obtain ⟨_, h1⟩ := (C18_annexB nd opts us hu hl σ c bs σ' c').mp h
    obtain ⟨ms, h2, h3⟩ := inOrder_contents h1 (vs := framedUnits k 0 (us.map (·.2))) (by rw [annexBUnits_snd, framedUnits_snd])
    refine ⟨⟨{}, _⟩, (C17_framed_partial nd opts _ hk hv hl' σ c _ σ' c').mpr ⟨rfl, ms, h2, rfl⟩, ?_⟩
    unfold contents
    rw [List.map_map]
    exact h3
  · rintro ⟨bs, h, rfl⟩
    obtain ⟨_, ns, h1, h4⟩ := (C17_framed_partial nd opts _ hk hv hl' σ c bs σ' c').mp h
    obtain ⟨ms, h2, h3⟩ := inOrder_contents h1 (vs := annexBUnits 0 us) (by rw [annexBUnits_snd, framedUnits_snd])
    refine ⟨⟨{}, ms⟩, (C18_annexB nd opts us hu hl σ c _ σ' c').mpr ⟨rfl, h2⟩, ?_⟩
    unfold contents
    rw [h4, List.map_map]
    exact h3

/-- A packet of type up to 23 is parsed like the NAL unit, whatever happens. -/
theorem rtp_nal (nd : Bool) (opts : ParsingOptions) {p : List UInt8} (hl : p.length < 2 ^ 61) (ht : ∀ t, packetType p = some t → t ≤ 23)
    (σ : Store) (c : Nat) : parseRtpData nd p 0 p.length σ c =
      (parseNalUnit nd opts p 0 p.length σ c).bind fun r => .val (r.1.map fun u =>
        ({ nal_unit_header := u.nal_unit_header, rtp_single := some ⟨u.nal_unit_header, u.nal_unit_payload⟩ } : Rtp), r.2.1, r.2.2) := by
  cases hn : parseNalUnit nd opts p 0 p.length σ c with
  | val r =>
    obtain ⟨n, σ1, c1⟩ := r
    refine C40_single (by omega) hl hn (fun u hu => ?_)
    rcases nalUnitL_cases (parseNalUnit_val (by omega) hl hn) with ⟨rfl, _⟩ | ⟨hd, s, q, s', rfl, h1, _⟩
    · cases hu
    · cases hu
      refine ht _ ?_
      have := header_typeL h1
      rw [List.drop_zero, List.take_length, packetType_strip] at this
      exact this
  | bad e =>
    unfold parseRtpData
    rw [onData_eq (by omega) hl]
    rw [parseNalUnit_eqL (by omega) hl] at hn
    rw [List.drop_zero, List.take_length] at hn ⊢
    split at hn
    · rename_i hf
      rw [if_pos hf]
      unfold nalUnitL at hn
      cases hr : runL nd parseNalHeader ⟨allBits (strip p), c⟩ with
      | bad e => exact absurd hr (safe_nalHeader nd _ e)
      | null s => rw [hr] at hn; cases hn
      | ok hd s =>
        rw [hr] at hn
        dsimp only at hn
        have h3 := header_typeL hr
        rw [packetType_strip] at h3
        rw [parseRtp_single nd σ hf.lt c hr (ht _ h3)]
        cases hp : runL nd (parsePayload σ hd) s with
        | bad e' => rw [hp] at hn; cases hn; rfl
        | null s' => rw [hp] at hn; cases hn
        | ok a s' => rw [hp] at hn; cases hn
    · rename_i hf
      rw [if_neg hf]
      cases hn
      rfl

theorem inOrder_session (nd : Bool) (opts : ParsingOptions) : ∀ {us : List (Nat × List UInt8)} (_ : ∀ u ∈ us, u.2.length < 2 ^ 61)
    (_ : ∀ u ∈ us, ∀ t, packetType u.2 = some t → t ≤ 23) {σ σ' : Store} {c c' : Nat} {x : List (Option (NalHeader × Payload))},
    (∃ ns, InOrder (fun b => parseNalUnit nd opts b 0 b.length) us σ c ns σ' c' ∧
      ns.map (fun n => some (n.nal_unit_header, n.nal_unit_payload)) = x) ↔ ∃ xs, Session nd (us.map (·.2)) σ c xs σ' c' ∧ singles xs = x
  | [], _, _, σ, σ', c, c', x => by
    constructor
    · rintro ⟨ns, h, rfl⟩; cases h; exact ⟨[], .nil _ _, rfl⟩
    · rintro ⟨xs, h, rfl⟩; cases h; exact ⟨[], .nil _ _, rfl⟩
  | (off, b) :: us, hl, ht, σ, σ', c, c', x => by
    have hlb := hl (off, b) (List.mem_cons_self ..)
    have e := rtp_nal nd opts hlb (ht (off, b) (List.mem_cons_self ..)) σ c
    have ih := fun σ c x => inOrder_session nd opts (us := us) (fun u hu => hl u (List.mem_cons_of_mem _ hu))
      (fun u hu => ht u (List.mem_cons_of_mem _ hu)) (σ := σ) (σ' := σ') (c := c) (c' := c') (x := x)
    dsimp only at e hlb
    constructor
    · rintro ⟨ns, h, rfl⟩
      cases h with
      | skip h1 h2 =>
        obtain ⟨xs, h3, h4⟩ := (ih _ _ _).mp ⟨_, h2, rfl⟩
        refine ⟨none :: xs, .cons ?_ h3, h4⟩
        rw [h1] at e
        exact e
      | unit h1 h2 =>
        obtain ⟨xs, h3, h4⟩ := (ih _ _ _).mp ⟨_, h2, rfl⟩
        rw [h1] at e
        refine ⟨_ :: xs, .cons e h3, ?_⟩
        unfold singles at h4 ⊢
        rw [List.filterMap_cons, h4]
        rfl
    · rintro ⟨xs, h, rfl⟩
      cases h with
      | @cons _ _ _ σ1 _ _ c1 _ y ys h1 h2 =>
        obtain ⟨ns, h3, h4⟩ := (ih _ _ _).mpr ⟨_, h2, rfl⟩
        rw [e] at h1
        cases hn : parseNalUnit nd opts b 0 b.length σ c with
        | bad e => rw [hn] at h1; cases h1
        | val r =>
          obtain ⟨n, τ, d⟩ := r
          rw [hn] at h1
          simp only [Res.bind, Res.val.injEq, Prod.mk.injEq] at h1
          obtain ⟨rfl, rfl, rfl⟩ := h1
          cases n with
          | none =>
            have h5 := parseNalUnit_none (data := b) (by omega) hlb hn
            subst h5
            exact ⟨ns, .skip hn h3, h4⟩
          | some n =>
            refine ⟨_, .unit hn h3, ?_⟩
            rw [List.map_cons, h4]
            rfl

/-- C70: the NAL units of an Annex B stream, sent in single NAL unit packets, give the same headers and payloads, the same parser state
and the same count. -/
theorem C70_packets (nd : Bool) (opts : ParsingOptions) {us : List (Bool × List UInt8)} (hu : ∀ x ∈ us, Carriable x.2)
    (ht : ∀ x ∈ us, ∀ t, packetType x.2 = some t → t ≤ 23) (hl : (annexB us).length < 2 ^ 61) (σ : Store) (c : Nat) (σ' : Store) (c' : Nat)
    (x : List (Option (NalHeader × Payload))) :
    (∃ bs, parseBitstream nd opts (annexB us) σ c = .val (bs, σ', c') ∧
      bs.nal_units.map (fun n => some (n.nal_unit_header, n.nal_unit_payload)) = x) ↔
      ∃ xs, Session nd (us.map (·.2)) σ c xs σ' c' ∧ singles xs = x := by
  have hm : ∀ u ∈ annexBUnits 0 us, ∃ y ∈ us, y.2 = u.2 := by
    intro u hm
    have := List.mem_map_of_mem (f := fun (v : Nat × List UInt8) => v.2) hm
    rw [annexBUnits_snd] at this
    obtain ⟨y, hy, e⟩ := List.mem_map.mp this
    exact ⟨y, hy, e⟩
  have hlen : ∀ (l : List (Bool × List UInt8)), ∀ y ∈ l, y.2.length ≤ (annexB l).length := by
    intro l
    induction l with
    | nil => intro y hy; cases hy
    | cons z l ih =>
      obtain ⟨long, b⟩ := z
      intro y hy
      rw [annexB, List.length_append, List.length_append]
      rcases List.mem_cons.mp hy with rfl | hy
      · dsimp only; omega
      · have := ih y hy; omega
  have h := inOrder_session nd opts (us := annexBUnits 0 us)
    (fun u hx => by obtain ⟨y, hy, e⟩ := hm u hx; rw [← e]; exact Nat.lt_of_le_of_lt (hlen us y hy) hl)
    (fun u hx => by obtain ⟨y, hy, e⟩ := hm u hx; rw [← e]; exact ht y hy) (σ := σ) (σ' := σ') (c := c) (c' := c') (x := x)
  rw [annexBUnits_snd] at h
  rw [← h]
  constructor
  · rintro ⟨bs, h1, h2⟩
    exact ⟨bs.nal_units, ((C18_annexB nd opts us hu hl σ c bs σ' c').mp h1).2, h2⟩
  · rintro ⟨ns, h1, h2⟩
    exact ⟨⟨{}, ns⟩, (C18_annexB nd opts us hu hl σ c _ σ' c').mpr ⟨rfl, h1⟩, h2⟩

/-- The NAL units of the example can be carried in every container. -/
example : (∀ x ∈ exStreamUnits, Carriable x.2) ∧ (∀ x ∈ exStreamUnits, ∀ t, packetType x.2 = some t → t ≤ 23) ∧
    (∀ x ∈ exStreamUnits, x.2.length < 256 ^ 1) := by
  obtain ⟨σ', h⟩ := exStream
  refine ⟨coded_all_carriable h, ?_, by decide +kernel⟩
  have : ∀ x ∈ exStreamUnits, (packetType x.2).all (· ≤ 23) = true := by decide +kernel
  intro x hx t ht
  have := this x hx
  rw [ht] at this
  simpa using this

/-- Not so for fragmentation units: of a NAL unit of type 28 ParseBitstream returns the header, and ParseRtp refuses the packet. -/
example (nd : Bool) : (∃ r, parseBitstream nd {} [0, 0, 1, 28] {} 0 = .val r ∧ r.1.nal_units.length = 1) ∧
    ∃ r, parseRtpData nd [28] 0 1 {} 0 = .val r ∧ r.1 = none := by
  cases nd <;> exact ⟨exists_dec (by decide +kernel), exists_dec (by decide +kernel)⟩

end H264.Props
