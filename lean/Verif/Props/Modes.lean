import Verif.Modes
import Verif.Props.Length
import Verif.Props.StapA
import Verif.Props.Rtp

/-
A build with assertions and an NDEBUG build: C45.
-/

namespace H264.Props
open Prog H264.Spec

theorem nalUnitL_modes {opts : ParsingOptions} {bytes : List UInt8} {σ : Store} {c : Nat}
    (hm : ∀ h r, h.Ok → allBits bytes = encNalHeader h ++ r → ¬ UnreadablePayload h.nal_unit_type r) {nd : Bool}
    {n : Option NalUnit} {σ' : Store} {c' : Nat} (h : nalUnitL nd opts bytes σ c = .val (n, σ', c')) (nd' : Bool) :
    ∃ m, nalUnitL nd' opts bytes σ c = .val (m, σ', c') ∧ m.map NalUnit.core = n.map NalUnit.core := by
  have key : ∀ nd, ∃ x, nalUnitL true opts bytes σ c = x ∧
      match x with
      | .val (n, τ, d) => ∃ m, nalUnitL nd opts bytes σ c = .val (m, τ, d) ∧ m.map NalUnit.core = n.map NalUnit.core
      | .bad e => nalUnitL nd opts bytes σ c = .bad e := by
    intro nd
    refine ⟨_, rfl, ?_⟩
    cases nd with
    | true =>
      generalize nalUnitL true opts bytes σ c = x
      cases x with
      | val a => exact ⟨_, rfl, rfl⟩
      | bad e => rfl
    | false =>
      unfold nalUnitL
      have h1 := mode_nalHeader ⟨allBits bytes, c⟩
      have hk := codec_nalHeader true (allBits bytes) c
      generalize runL true parseNalHeader ⟨allBits bytes, c⟩ = x at *
      generalize runL false parseNalHeader ⟨allBits bytes, c⟩ = y at *
      cases x <;> cases y <;> simp only [Out.same] at h1
      · rename_i hd s hd' s'
        obtain ⟨rfl, rfl⟩ := h1
        obtain ⟨ok, r, e, rfl⟩ := (hk hd s).mp rfl
        have h2 : SimAt (parsePayload σ hd) ⟨r, c⟩ := simAt_payload (hm hd r ok e)
        dsimp only
        unfold SimAt at h2
        generalize runL true (parsePayload σ hd) ⟨r, c⟩ = x at *
        generalize runL false (parsePayload σ hd) ⟨r, c⟩ = y at *
        cases x <;> cases y <;> simp only [Out.sim] at h2
        · rename_i a s a' s'
          obtain ⟨rfl, h2⟩ := h2
          refine ⟨some ⟨0, 0, (8 * bytes.length - s'.rem.length + 7) / 8, ckOf opts bytes, hd, a.1⟩, ?_, rfl⟩
          dsimp only
          rw [h2]
        · exact ⟨_, by rw [h2], rfl⟩
        · rw [h2]
      · exact ⟨_, by rw [h1], rfl⟩
      · rw [h1]
  obtain ⟨x, h1, h2⟩ := key nd
  obtain ⟨y, h3, h4⟩ := key nd'
  rw [h1] at h3
  subst h3
  cases x with
  | bad e => rw [h2] at h; cases h
  | val a =>
    obtain ⟨a, τ, d⟩ := a
    obtain ⟨m, h5, h6⟩ := h2
    rw [h5] at h
    cases h
    obtain ⟨m', h7, h8⟩ := h4
    exact ⟨m', h7, h8.trans h6.symm⟩

/-- C45 for one NAL unit, from any parser state: what one build returns the other returns too, up to `parsed_length`: the same
header, payload and checksum, the same parser state and the same count of unimplemented syntax.  Partial: for NAL units below 4
GiB without a scaling list in which a delta_scale cannot be read (one that is out of range does not matter); `parsed_length` can
differ. -/
theorem C45_nal_unit_partial (opts : ParsingOptions) {data : List UInt8} {off len : Nat} (h : off + len ≤ data.length)
    (hl : data.length < 2 ^ 32) (hm : ¬ UnreadableUnit ((data.drop off).take len)) (σ : Store) (c : Nat) (nd nd' : Bool)
    {n : Option NalUnit} {σ' : Store} {c' : Nat} (he : parseNalUnit nd opts data off len σ c = .val (n, σ', c')) :
    ∃ m, parseNalUnit nd' opts data off len σ c = .val (m, σ', c') ∧ m.map NalUnit.core = n.map NalUnit.core := by
  have hf : ∀ nd, Fits nd (strip ((data.drop off).take len)).length := by
    intro nd
    have := strip_length ((data.drop off).take len)
    rw [List.length_take, List.length_drop] at this
    unfold Fits
    split <;> omega
  rw [parseNalUnit_eqL h (by omega), if_pos (hf _)] at he ⊢
  refine nalUnitL_modes (fun hd r ok e hp => hm ⟨hd, r, ok, ?_, hp⟩) he nd'
  rw [← strip_eq]
  exact e

theorem inOrder_modes {opts : ParsingOptions} {us : List (Nat × List UInt8)} {σ σ' : Store} {c c' : Nat} {ns : List NalUnit}
    {nd : Bool} (nd' : Bool) (hu : ∀ u ∈ us, u.2.length < 2 ^ 32 ∧ ¬ UnreadableUnit u.2)
    (h : InOrder (fun b => parseNalUnit nd opts b 0 b.length) us σ c ns σ' c') :
    ∃ ms, InOrder (fun b => parseNalUnit nd' opts b 0 b.length) us σ c ms σ' c' ∧
      ms.map NalUnit.core = ns.map NalUnit.core := by
  have key : ∀ (b : List UInt8), b.length < 2 ^ 32 → ¬ UnreadableUnit b → ∀ (σ : Store) (c : Nat) (n : Option NalUnit) (σ' : Store) (c' : Nat),
      parseNalUnit nd opts b 0 b.length σ c = .val (n, σ', c') →
      ∃ m, parseNalUnit nd' opts b 0 b.length σ c = .val (m, σ', c') ∧ m.map NalUnit.core = n.map NalUnit.core := by
    intro b hb hm σ c n σ' c' he
    exact C45_nal_unit_partial opts (by omega) hb (by rw [List.drop_zero, List.take_length]; exact hm) σ c nd nd' he
  induction h with
  | nil σ c => exact ⟨[], .nil _ _, rfl⟩
  | @skip off bytes rest σ τ c c1 c' ns h1 h2 ih =>
    obtain ⟨ms, h3, h4⟩ := ih (fun u h => hu u (by simp [h]))
    obtain ⟨hb, hm⟩ := hu (off, bytes) (by simp)
    obtain ⟨m, h5, h6⟩ := key bytes hb hm _ _ _ _ _ h1
    cases m with
    | some m => cases h6
    | none => exact ⟨ms, .skip h5 h3, h4⟩
  | @unit off bytes rest σ τ τ' c c1 c' n ns h1 h2 ih =>
    obtain ⟨ms, h3, h4⟩ := ih (fun u h => hu u (by simp [h]))
    obtain ⟨hb, hm⟩ := hu (off, bytes) (by simp)
    obtain ⟨m, h5, h6⟩ := key bytes hb hm _ _ _ _ _ h1
    cases m with
    | none => cases h6
    | some m =>
      refine ⟨_, .unit h5 h3, ?_⟩
      simp only [Option.map, Option.some.injEq] at h6
      rw [List.map_cons, List.map_cons, h4]
      congr 1
      obtain ⟨_, _, _, _, _, _⟩ := m
      obtain ⟨_, _, _, _, _, _⟩ := n
      simp only [NalUnit.core, NalUnit.mk.injEq] at h6 ⊢
      simp [h6]

/-- C45 for an Annex B stream.  Partial: as for one NAL unit. -/
theorem C45_stream_partial (opts : ParsingOptions) {data : List UInt8} (hl : data.length < 2 ^ 32)
    (hm : ∀ e ∈ entries data (starts data), ¬ UnreadableUnit (sliceOf data e)) (σ : Store) (c : Nat) (nd nd' : Bool)
    {bs : Bitstream} {σ' : Store} {c' : Nat} (he : parseBitstream nd opts data σ c = .val (bs, σ', c')) :
    ∃ bs', parseBitstream nd' opts data σ c = .val (bs', σ', c') ∧ bs'.parsing_options = bs.parsing_options ∧
      bs'.nal_units.map NalUnit.core = bs.nal_units.map NalUnit.core := by
  obtain ⟨h1, h2⟩ := (C18_in_order nd opts data (by omega) σ c bs σ' c').mp he
  obtain ⟨ms, h3, h4⟩ := inOrder_modes nd' (by
    intro u hu
    obtain ⟨e, he, rfl⟩ := List.mem_map.mp hu
    refine ⟨?_, hm e he⟩
    simp only [sliceOf, List.length_take, List.length_drop]
    omega) h2
  exact ⟨⟨{}, ms⟩, (C18_in_order nd' opts data (by omega) σ c _ σ' c').mpr ⟨rfl, h3⟩, h1.symm, h4⟩

/-- C45 for a length-prefixed stream.  Partial: as for one NAL unit, and for prefixes of 1 to 7 bytes. -/
theorem C45_length_stream_partial (opts : ParsingOptions) {data : List UInt8} (hl : data.length < 2 ^ 32) {k : Nat} (hk : 0 < k)
    (hk7 : k ≤ 7) (hm : ∀ us, LengthUnits data k 0 us → ∀ u ∈ us, ¬ UnreadableUnit u.2) (σ : Store) (c : Nat) (nd nd' : Bool)
    {bs : Bitstream} {σ' : Store} {c' : Nat} (he : parseBitstreamNALULength nd opts data k σ c = .val (bs, σ', c')) :
    ∃ bs', parseBitstreamNALULength nd' opts data k σ c = .val (bs', σ', c') ∧ bs'.parsing_options = bs.parsing_options ∧
      bs'.nal_units.map NalUnit.core = bs.nal_units.map NalUnit.core := by
  obtain ⟨us, h1, h2⟩ := C17_in_order_upto7_partial nd opts data (by omega) hk hk7
  obtain ⟨us', h1', h2'⟩ := C17_in_order_upto7_partial nd' opts data (by omega) hk hk7
  obtain rfl := LengthUnits.unique h1 h1'
  obtain ⟨h3, ns, h4, h5⟩ := (h2 _ _ _ _ _).mp he
  have hlen : ∀ (pos : Nat) (us : List (Nat × List UInt8)), LengthUnits data k pos us → ∀ u ∈ us, u.2.length ≤ data.length := by
    intro pos us h
    induction h with
    | stop _ => simp
    | next _ _ _ _ ih =>
      intro u hu
      rcases List.mem_cons.mp hu with rfl | hu
      · rw [List.length_take, List.length_drop]; omega
      · exact ih u hu
  obtain ⟨ms, h6, h7⟩ := inOrder_modes nd' (fun u hu => ⟨Nat.lt_of_le_of_lt (hlen _ _ h1 u hu) hl, hm us h1 u hu⟩) h4
  refine ⟨⟨{}, ms.map (fun n => { n with length := k })⟩, (h2' _ _ _ _ _).mpr ⟨rfl, ms, h6, rfl⟩, h3.symm, ?_⟩
  rw [h5]
  have : ∀ l : List NalUnit, (l.map (fun n => { n with length := k })).map NalUnit.core =
      (l.map NalUnit.core).map (fun n => { n with length := k }) := by
    intro l
    rw [List.map_map, List.map_map]
    rfl
  rw [this, this, h7]

theorem seRange_delta {d : Int} (h1 : -128 ≤ d) (h2 : d ≤ 127) : seRange d := by unfold seRange; omega

theorem dropWhile_lt {l : List Bool} (h : l ≠ []) (hc : ∀ d r, seRange d → l ≠ encSE d ++ r) :
    (l.dropWhile (fun b => !b)).length < l.length := by
  cases l with
  | nil => exact absurd rfl h
  | cons a l =>
    cases a with
    | true => exact absurd (show true :: l = encSE 0 ++ l from rfl) (hc 0 l (by unfold seRange; omega))
    | false =>
      simp only [List.dropWhile_cons, Bool.not_false, if_true, List.length_cons]
      have := (List.dropWhile_sublist (l := l) (fun b => !b)).length_le
      omega

theorem unreadable_differs {n last next : Nat} {l : List Bool} (h : UnreadableList n last next l) :
    ∀ {r r' : List Bool} {out out' : List Nat} {ds ds' : List Int} {ok ok' : Bool}, ListRead true n last next l r out ds ok →
      ListRead false n last next l r' out' ds' ok' → r.length < r'.length := by
  induction h with
  | here h1 h2 h3 =>
    intro r r' out out' ds ds' ok ok' ha hb
    cases ha with
    | read _ g1 g2 _ _ _ => exact absurd rfl (h3 _ _ (seRange_delta g1 g2))
    | keep => exact absurd rfl h1
    | outOfRange _ g _ => exact absurd rfl (h3 _ _ g)
    | unreadable _ _ =>
      cases hb with
      | read _ g1 g2 _ _ _ => exact absurd rfl (h3 _ _ (seRange_delta g1 g2))
      | keep => exact absurd rfl h1
      | outOfRange _ g _ => exact absurd rfl (h3 _ _ g)
      | unreadable _ _ => exact dropWhile_lt h2 h3
  | @later n last next d ns l l' h1 h2 h3 h4 h5 _ ih =>
    intro r r' out out' ds ds' ok ok' ha hb
    have inv : ∀ {nd : Bool} {r : List Bool} {out : List Nat} {ds : List Int} {ok : Bool}, ListRead nd (n + 1) last next l r out ds ok →
        ∃ out ds, ListRead nd n (if ns = 0 then last else ns) ns l' r out ds ok := by
      intro nd r out ds ok h
      generalize hn : n + 1 = n' at h
      cases h with
      | done => omega
      | read _ g1 g2 g3 g4 g5 =>
        obtain ⟨rfl, rfl⟩ := encSE_cancel ⟨g1, g2⟩ ⟨h2, h3⟩ h5
        have := Int.ofNat.inj (g3.trans h4.symm)
        subst this
        subst g4
        cases hn
        exact ⟨_, _, g5⟩
      | keep => exact absurd rfl h1
      | outOfRange _ g1 g2 =>
        have e1 := Codec.se.parse_append false g1 r 0
        rw [h5, Codec.se.parse_append false (seRange_delta h2 h3)] at e1
        simp only [Out.ok.injEq] at e1
        exact absurd (e1.1 ▸ ⟨h2, h3⟩) g2
      | unreadable _ g => exact absurd h5 (g _ _ (seRange_delta h2 h3))
    obtain ⟨_, _, ha⟩ := inv ha
    obtain ⟨_, _, hb⟩ := inv hb
    exact ih ha hb

/-- C45: a scaling list is the place where the builds part: `scaling_list()` stops at different places in the two builds iff a
delta_scale cannot be read. -/
theorem C45_scaling_list (i size : Nat) (s : SLSt) (l : List Bool) (c : Nat) :
    runL true (scalingList i size s) ⟨l, c⟩ = runL false (scalingList i size s) ⟨l, c⟩ ↔ ¬ UnreadableList size 8 8 l := by
  obtain ⟨r, out, ds, ok, h⟩ := ListRead.total true size 8 8 l (by omega)
  constructor
  · intro he hu
    obtain ⟨r', out', ds', ok', h'⟩ := ListRead.total false size 8 8 l (by omega)
    rw [scalingList_read true i size h, scalingList_read false i size h'] at he
    simp only [Out.ok.injEq, LSt.mk.injEq, and_true] at he
    have := unreadable_differs hu h h'
    rw [he.2] at this
    omega
  · intro hu
    rw [scalingList_read true i size h, scalingList_read false i size (listRead_modes h hu false)]

theorem listRead_det {nd : Bool} {size : Nat} {l r r' : List Bool} {out out' : List Nat} {ds ds' : List Int} {ok ok' : Bool}
    (h : ListRead nd size 8 8 l r out ds ok) (h' : ListRead nd size 8 8 l r' out' ds' ok') : r = r' := by
  have e := scalingList_read nd 0 size h {} 0
  rw [scalingList_read nd 0 size h'] at e
  simp only [Out.ok.injEq, LSt.mk.injEq, and_true] at e
  exact e.2.symm

theorem not_unreadable {size : Nat} {l r : List Bool} {out : List Nat} {ds : List Int} {ok : Bool}
    (h : ∀ nd, ListRead nd size 8 8 l r out ds ok) : ¬ UnreadableList size 8 8 l := by
  intro hu
  have := unreadable_differs hu (h true) (h false)
  omega

theorem not_unreadable_lists : ∀ (ls : List (Option SL)) (i : Nat) (r : List Bool), ListsOk i ls →
    ¬ UnreadableLists ls.length i (encLists ls ++ r) := by
  intro ls
  induction ls with
  | nil => intro i r _ h; cases h
  | cons x ls ih =>
    intro i r ok h
    cases x with
    | none =>
      rw [encLists_cons_none] at h
      cases h with
      | here e _ => cases e
      | absent e h => cases e; exact ih _ _ ok h
      | present e _ _ => cases e
    | some x =>
      rw [encLists_cons_some, List.cons_append, List.append_assoc] at h
      have hr : ∀ nd, ListRead nd (if i < 6 then 16 else 64) 8 8 (encDeltas x.deltas ++ (encLists ls ++ r)) (encLists ls ++ r)
          x.list x.deltas true := fun nd => (listRead_iff_ok nd).mpr ⟨ok.1, rfl⟩
      cases h with
      | here e h => cases e; exact not_unreadable hr h
      | absent e h => cases e
      | present e h1 h =>
        cases e
        obtain rfl := listRead_det (hr false) h1
        exact ih _ _ ok.2 h

/-- In a well-formed SPS every delta_scale can be read. -/
theorem not_unreadable_sps {x : SpsSyn} (ok : x.Ok) (r : List Bool) : ¬ UnreadableSps (encSps x ++ r) := by
  rintro ⟨h, rest, hk, e, hu⟩
  have e1 := codec_spsHead.parse_append false hk rest 0
  rw [← e] at e1
  unfold encSps at e1
  rw [List.append_assoc, List.append_assoc, codec_spsHead.parse_append false ok.head] at e1
  simp only [Out.ok.injEq, LSt.mk.injEq, and_true] at e1
  obtain ⟨rfl, rfl⟩ := e1
  rw [← ok.count] at hu
  exact not_unreadable_lists _ _ _ ok.lists hu

theorem not_unreadable_unit {bytes : List UInt8} {h : NalHeader} (hk : h.Ok) (ht : h.nal_unit_type = 7) {r : List Bool}
    (hu : ¬ UnreadableSps r) (hb : allBits (withoutEmulation bytes) = encNalHeader h ++ r) : ¬ UnreadableUnit bytes := by
  rintro ⟨h', r', hk', hb', hp⟩
  have e1 := codec_nalHeader.parse_append false hk r 0
  rw [← hb, hb', codec_nalHeader.parse_append false hk'] at e1
  simp only [Out.ok.injEq, LSt.mk.injEq, and_true] at e1
  obtain ⟨rfl, rfl⟩ := e1
  rcases hp with ⟨_, hp⟩ | ⟨h8, _⟩ | ⟨h15, _⟩
  · exact hu hp
  · omega
  · omega

theorem run_modes {α : Type} {p : Prog α} (hp : ModeIndep p) {b : Buf} (hb : b.WF) (c : Nat) (a : α) (s : St) :
    run true p ⟨b, c⟩ = .ok a s ↔ run false p ⟨b, c⟩ = .ok a s := by
  rw [run_ok_iff true p hb, run_ok_iff false p hb]
  have h := hp ⟨b.rem, c⟩
  revert h
  cases runL true p ⟨b.rem, c⟩ <;> cases runL false p ⟨b.rem, c⟩ <;> simp only [Out.same, reduceCtorEq, false_and, exists_false,
    implies_true, false_implies, Out.ok.injEq]
  rintro ⟨rfl, rfl⟩
  exact Iff.rfl

/-- C45 for the parsers that call neither `scaling_list` nor a parser whose failure they ignore: at every position of every
buffer both builds return the same value and stop at the same place, or both return null. -/
theorem C45_readers {b : Buf} (hb : b.WF) (c : Nat) (s : St) :
    (∀ a, run true parseNalHeader ⟨b, c⟩ = .ok a s ↔ run false parseNalHeader ⟨b, c⟩ = .ok a s) ∧
    (∀ a, run true parseHrd ⟨b, c⟩ = .ok a s ↔ run false parseHrd ⟨b, c⟩ = .ok a s) ∧
    (∀ a, run true parseVui ⟨b, c⟩ = .ok a s ↔ run false parseVui ⟨b, c⟩ = .ok a s) ∧
    (∀ a, run true parseSpsExt ⟨b, c⟩ = .ok a s ↔ run false parseSpsExt ⟨b, c⟩ = .ok a s) ∧
    (∀ cat a, run true (parseSpsSvcExt cat) ⟨b, c⟩ = .ok a s ↔ run false (parseSpsSvcExt cat) ⟨b, c⟩ = .ok a s) ∧
    (∀ t a, run true (parseRefPicListMod t) ⟨b, c⟩ = .ok a s ↔ run false (parseRefPicListMod t) ⟨b, c⟩ = .ok a s) ∧
    (∀ t a, run true (parseDecRefPicMarking t) ⟨b, c⟩ = .ok a s ↔ run false (parseDecRefPicMarking t) ⟨b, c⟩ = .ok a s) ∧
    (∀ x y z t a, run true (parsePredWeightTable x y z t) ⟨b, c⟩ = .ok a s ↔ run false (parsePredWeightTable x y z t) ⟨b, c⟩ = .ok a s) ∧
    (∀ x y z t a, run true (parsePrefixRbsp x y z t) ⟨b, c⟩ = .ok a s ↔ run false (parsePrefixRbsp x y z t) ⟨b, c⟩ = .ok a s) ∧
    (∀ σ x y a, run true (parseSliceHeader σ x y) ⟨b, c⟩ = .ok a s ↔ run false (parseSliceHeader σ x y) ⟨b, c⟩ = .ok a s) ∧
    (∀ σ h a, run true (parseScalHeader σ h) ⟨b, c⟩ = .ok a s ↔ run false (parseScalHeader σ h) ⟨b, c⟩ = .ok a s) :=
  ⟨fun a => run_modes mode_nalHeader hb c a s, fun a => run_modes mode_hrd hb c a s, fun a => run_modes mode_vui hb c a s,
   fun a => run_modes mode_spsExt hb c a s, fun cat a => run_modes (mode_spsSvcExt cat) hb c a s,
   fun t a => run_modes (mode_refPicListMod t) hb c a s, fun t a => run_modes (mode_decRefPicMarking t) hb c a s,
   fun x y z t a => run_modes (mode_predWeightTable x y z t) hb c a s, fun x y z t a => run_modes (mode_prefixRbsp x y z t) hb c a s,
   fun σ x y a => run_modes (mode_sliceHeader σ x y) hb c a s, fun σ h a => run_modes (mode_scalHeader σ h) hb c a s⟩

/-- C45 for a packet that is parsed as a single NAL unit packet.  Partial: as for one NAL unit (`parsed_length` is not part of
the result). -/
theorem C45_rtp_single_partial {data : List UInt8} {off len : Nat} (h : off + len ≤ data.length)
    (hl : data.length < 2 ^ 32) (hm : ¬ UnreadableUnit ((data.drop off).take len)) (σ : Store) (c : Nat) (nd nd' : Bool)
    {x : Rtp} {σ' : Store} {c' : Nat} (he : parseRtpData nd data off len σ c = .val (some x, σ', c')) (hx : x.rtp_single.isSome) :
    parseRtpData nd' data off len σ c = .val (some x, σ', c') := by
  obtain ⟨y, hy⟩ := Option.isSome_iff_exists.mp hx
  obtain ⟨n, h1, h2, h3, h4, h5, h6, h7⟩ := C40_single_conv {} h (by omega) he hy
  obtain ⟨m, h8, h9⟩ := C45_nal_unit_partial {} h hl hm σ c nd nd' h1
  cases m with
  | none => cases h9
  | some m =>
    simp only [Option.map, Option.some.injEq] at h9
    have e1 : m.nal_unit_header = n.nal_unit_header := by have := congrArg NalUnit.nal_unit_header h9; exact this
    have e2 : m.nal_unit_payload = n.nal_unit_payload := by have := congrArg NalUnit.nal_unit_payload h9; exact this
    rw [C40_single h (by omega) h8 (by intro u hu; cases hu; rw [e1]; exact h5)]
    simp only [Option.map, e1, e2]
    obtain ⟨_, _, _, _⟩ := x
    obtain ⟨_, _⟩ := y
    simp only at h2 h3 h4 h6 h7 hy
    subst h2 h3 h4 h6 h7 hy
    rfl

/-- C45 fails, 1: `parsed_length`.  After a slice header that cannot be read, an NDEBUG build reports one more byte as parsed. -/
theorem C45_parsed_length_differs :
    (∃ n σ c, parseNalUnit true {} [0x65, 0x00] 0 2 {} 0 = .val (some n, σ, c) ∧ n.parsed_length = 2) ∧
    (∃ n σ c, parseNalUnit false {} [0x65, 0x00] 0 2 {} 0 = .val (some n, σ, c) ∧ n.parsed_length = 1) := by
  have h : ∀ (nd : Bool) (k : Nat), ((parseNalUnit nd {} [0x65, 0x00] 0 2 {} 0).passes fun x =>
      match x.1 with
      | some n => decide (n.parsed_length = k)
      | none => false) = true →
      ∃ n σ c, parseNalUnit nd {} [0x65, 0x00] 0 2 {} 0 = .val (some n, σ, c) ∧ n.parsed_length = k := by
    intro nd k h
    obtain ⟨⟨n, σ, c⟩, h1, h2⟩ := Res.exists_of_passes h
    cases n with
    | none => cases h2
    | some n => exact ⟨n, σ, c, h1, of_decide_eq_true h2⟩
  exact ⟨h true 2 (by decide +kernel), h false 1 (by decide +kernel)⟩

/-- An SPS (320x240, High profile) whose first scaling list starts with 32 zero bits, which are no Exp-Golomb code. -/
def splitSps : List UInt8 := [103, 100, 0, 30, 173, 128, 0, 0, 3, 0, 66, 32, 90, 5, 7, 228]

/-- C45 fails, 2: the payload and the parser state.  The NDEBUG build returns and stores this SPS; the build with assertions
returns no SPS and stores nothing. -/
theorem C45_sps_differs :
    (∃ n σ c s, parseNalUnit true {} splitSps 0 16 {} 0 = .val (some n, σ, c) ∧ n.nal_unit_payload.sps = some s ∧ σ.sps 0 = some s ∧
      s.pic_width_in_mbs_minus1 = 19) ∧
    (∃ n σ c, parseNalUnit false {} splitSps 0 16 {} 0 = .val (some n, σ, c) ∧ n.nal_unit_payload.sps = none ∧ σ.sps 0 = none) := by
  constructor
  · obtain ⟨⟨n, σ, c⟩, h1, h2⟩ := exists_dec (x := parseNalUnit true {} splitSps 0 16 {} 0)
      (P := fun x => x.1.isSome ∧ (x.1.bind (·.nal_unit_payload.sps)).isSome ∧ x.2.1.sps 0 = x.1.bind (·.nal_unit_payload.sps) ∧
        (x.1.bind (·.nal_unit_payload.sps)).map (·.pic_width_in_mbs_minus1) = some 19) (by decide +kernel)
    obtain ⟨ha, hb, hc, hd⟩ := h2
    dsimp only at ha hb hc hd
    obtain ⟨n, rfl⟩ := Option.isSome_iff_exists.mp ha
    obtain ⟨s, hs⟩ := Option.isSome_iff_exists.mp hb
    rw [hs] at hc hd
    exact ⟨n, σ, c, s, h1, hs, hc, Option.some.inj hd⟩
  · obtain ⟨⟨n, σ, c⟩, h1, h2⟩ := exists_dec (x := parseNalUnit false {} splitSps 0 16 {} 0)
      (P := fun x => x.1.isSome ∧ (x.1.bind (·.nal_unit_payload.sps)) = none ∧ x.2.1.sps 0 = none) (by decide +kernel)
    obtain ⟨ha, hb, hc⟩ := h2
    dsimp only at ha hb hc
    obtain ⟨n, rfl⟩ := Option.isSome_iff_exists.mp ha
    exact ⟨n, σ, c, h1, hb, hc⟩

/-! ### Non-vacuity -/

/-- An SPS satisfies the condition of `C45_nal_unit_partial`; so does any NAL unit of another type than 7, 8 and 15. -/
example : ¬ UnreadableUnit exStapSpsNal :=
  not_unreadable_unit (h := exHdr 3 7) (exHdr_ok (by decide) (by decide)) rfl (not_unreadable_sps exStapSps_ok (trailingBits 6))
    (by decide +kernel)
/-- A list that starts with 33 zero bits cannot be read. -/
example : UnreadableList 16 8 8 (List.replicate 33 false ++ [true, true]) := by
  refine Classical.byContradiction fun h => ?_
  have e := (C45_scaling_list 0 16 {} _ 0).mpr h
  have e' := congrArg (fun x => match x with | Out.ok _ s => s.rem.length | _ => 0) e
  revert e'
  decide +kernel
/-- The SPS with a delta_scale of 200, whose scaling list is malformed, meets the condition too. -/
example : ¬ UnreadableSps badSpsBits := by
  rintro ⟨h, rest, hk, e, hu⟩
  have e1 := codec_spsHead.parse_append false hk rest 0
  rw [← e] at e1
  unfold badSpsBits at e1
  rw [codec_spsHead.parse_append false exSps_ok.head] at e1
  simp only [Out.ok.injEq, LSt.mk.injEq, and_true] at e1
  obtain ⟨rfl, rfl⟩ := e1
  have h8 : spsListCount exSps.head = 8 := by decide
  have hr : ∀ (nd : Bool) (r : List Bool), ListRead nd 16 8 8 (encSE 200 ++ r) r [] [200] false := fun nd r =>
    .outOfRange (by omega) (by unfold seRange; omega) (by omega)
  rw [h8] at hu
  simp only [List.append_assoc] at hu
  generalize encSpsTail exSps.tail ++ trailingBits 0 = tl at hu
  have z : encU 7 0 = [false, false, false, false, false, false, false] := rfl
  have noL : ∀ (n i : Nat) (l : List Bool), UnreadableLists (n + 1) i (false :: l) → UnreadableLists n (i + 1) l := by
    intro n i l h
    cases h with
    | here e _ => cases e
    | absent e h => cases e; exact h
    | present e _ _ => cases e
  have z7 : ∀ (i : Nat) (l : List Bool), ¬ UnreadableLists 7 i (encU 7 0 ++ l) := by
    intro i l h
    rw [z] at h
    have := noL _ _ _ (noL _ _ _ (noL _ _ _ (noL _ _ _ (noL _ _ _ (noL _ _ _ (noL _ _ _ h))))))
    cases this
  cases hu with
  | here e h => cases e; exact not_unreadable (fun nd => hr nd _) h
  | absent e h => cases e
  | present e h1 h =>
    cases e
    obtain rfl := listRead_det (hr false _) h1
    exact z7 _ _ h
example : ∃ n σ c, parseNalUnit true {} exStapSpsNal 0 17 {} 0 = .val (some n, σ, c) ∧ n.nal_unit_payload.sps.isSome := by
  obtain ⟨⟨n, σ, c⟩, h1, h2⟩ := exists_dec (x := parseNalUnit true {} exStapSpsNal 0 17 {} 0)
    (P := fun x => x.1.isSome ∧ (x.1.bind (·.nal_unit_payload.sps)).isSome) (by decide +kernel)
  obtain ⟨ha, hb⟩ := h2
  obtain ⟨n, rfl⟩ := Option.isSome_iff_exists.mp ha
  exact ⟨n, σ, c, h1, hb⟩
example (nd : Bool) : ∃ b : Buf, b.WF ∧ run nd parseNalHeader ⟨b, 0⟩ =
    .ok { nal_ref_idc := 3, nal_unit_type := 5 } ⟨{ bytes := [0x65], byteOff := 1, bitOff := 0 }, 0⟩ :=
  ⟨Buf.start [0x65], Buf.start_wf (by decide), by cases nd <;> decide +kernel⟩

end H264.Props
