import Verif.Lemmas.Combinators
import Verif.Lemmas.Codes
import Verif.Lemmas.Flags

/-! # Every chunk parser accepts exactly its layout -/

namespace Ase

open Spec

attribute [local irreducible] List.append

theorem parses_string : Parses parseString IsStr := by
  intro b r x
  rw [parseString_ok]
  exact ⟨fun ⟨h, e⟩ => ⟨_, ⟨h, rfl⟩, e⟩, by rintro ⟨_, ⟨h, rfl⟩, e⟩; exact ⟨h, e⟩⟩

theorem Parses.cond_opt {α : Type} {p : P α} {G : α → Bytes → Prop} (h : Parses p G) {c : Bool} {q : Prop}
    (hq : c = true ↔ q) {b r : Bytes} {x : Option α} :
    Ase.cond c p b = .ok (r, x) ↔ ∃ l, Opt q G x l ∧ b = l ++ r := by
  rw [h.cond]
  constructor
  · rintro (⟨hc, y, l, rfl, hl, rfl⟩ | ⟨hc, rfl, rfl⟩)
    · exact ⟨l, ⟨hq.1 hc, hl⟩, rfl⟩
    · exact ⟨[], ⟨fun h => by simp [hc] at hq; exact hq h, rfl⟩, by simp⟩
  · rintro ⟨l, hl, rfl⟩
    cases x with
    | some y => exact .inl ⟨hq.2 hl.1, y, l, rfl, hl.2, rfl⟩
    | none =>
      obtain ⟨hn, rfl⟩ := hl
      exact .inr ⟨by rw [← Bool.not_eq_true, hq]; exact hn, rfl, by simp⟩

/-! ## Header -/

theorem parseColorDepth_ok {b r : Bytes} {c : ColorDepth} :
    parseColorDepth b = .ok (r, c) ↔ ∃ w, c = colorDepthOf w ∧ b = le16 w ++ r := by
  simp only [parseColorDepth, P.bind_ok, word_ok, P.pure_ok]
  constructor
  · rintro ⟨w, _, rfl, rfl, rfl⟩; exact ⟨w, ColorDepth.ofWord_eq _, rfl⟩
  · rintro ⟨w, rfl, rfl⟩; exact ⟨w, _, rfl, rfl, (ColorDepth.ofWord_eq _).symm⟩

theorem parseHeaderFields_ok {b r : Bytes} {h : Header} :
    parseHeaderFields b = .ok (r, h) ↔ r = [] ∧ IsHeader h b := by
  unfold parseHeaderFields
  constructor
  · intro H0
    obtain ⟨fs, _, e0, H1⟩ := P.bind_ok.1 H0; clear H0
    obtain rfl := dword_ok.1 e0
    obtain ⟨_, _, e1, H2⟩ := P.bind_ok.1 H1; clear H1
    obtain ⟨rfl, rfl⟩ := tag_ok.1 e1
    obtain ⟨fr, _, e2, H3⟩ := P.bind_ok.1 H2; clear H2
    obtain rfl := word_ok.1 e2
    obtain ⟨w, _, e3, H4⟩ := P.bind_ok.1 H3; clear H3
    obtain rfl := word_ok.1 e3
    obtain ⟨hh, _, e4, H5⟩ := P.bind_ok.1 H4; clear H4
    obtain rfl := word_ok.1 e4
    obtain ⟨cd, _, e5, H6⟩ := P.bind_ok.1 H5; clear H5
    obtain ⟨dep, hcd, rfl⟩ := parseColorDepth_ok.1 e5
    obtain ⟨fl, _, e6, H7⟩ := P.bind_ok.1 H6; clear H6
    obtain rfl := dword_ok.1 e6
    obtain ⟨sp, _, e7, H8⟩ := P.bind_ok.1 H7; clear H7
    obtain rfl := word_ok.1 e7
    obtain ⟨_, _, e8, H9⟩ := P.bind_ok.1 H8; clear H8
    obtain ⟨rfl, rfl⟩ := tag_ok.1 e8
    obtain ⟨_, _, e9, H10⟩ := P.bind_ok.1 H9; clear H9
    obtain ⟨rfl, rfl⟩ := tag_ok.1 e9
    obtain ⟨ti, _, e10, H11⟩ := P.bind_ok.1 H10; clear H10
    obtain rfl := byte_ok.1 e10
    obtain ⟨ig, _, e11, H12⟩ := P.bind_ok.1 H11; clear H11
    obtain ⟨hig, rfl⟩ := take_ok.1 e11
    obtain ⟨cc, _, e12, H13⟩ := P.bind_ok.1 H12; clear H12
    obtain rfl := word_ok.1 e12
    obtain ⟨pw, _, e13, H14⟩ := P.bind_ok.1 H13; clear H13
    obtain rfl := byte_ok.1 e13
    obtain ⟨ph, _, e14, H15⟩ := P.bind_ok.1 H14; clear H14
    obtain rfl := byte_ok.1 e14
    obtain ⟨gx, _, e15, H16⟩ := P.bind_ok.1 H15; clear H15
    obtain rfl := short_ok.1 e15
    obtain ⟨gy, _, e16, H17⟩ := P.bind_ok.1 H16; clear H16
    obtain rfl := short_ok.1 e16
    obtain ⟨gw, _, e17, H18⟩ := P.bind_ok.1 H17; clear H17
    obtain rfl := word_ok.1 e17
    obtain ⟨gh, _, e18, H19⟩ := P.bind_ok.1 H18; clear H18
    obtain rfl := word_ok.1 e18
    obtain ⟨fu, _, e19, H20⟩ := P.bind_ok.1 H19; clear H19
    obtain ⟨hfu, rfl⟩ := take_ok.1 e19
    obtain ⟨rest, _, e20, H21⟩ := P.bind_ok.1 H20; clear H20
    obtain ⟨rfl, rfl⟩ := P.remaining_ok.1 e20
    split at H21
    · next hl =>
      rw [P.pure_ok] at H21
      obtain ⟨rfl, rfl⟩ := H21
      rw [List.length_eq_zero_iff] at hl
      subst hl
      exact ⟨rfl, dep, ig, fu, hig, hfu, hcd, by simp [headerMagic]⟩
    · cases H21
  · rintro ⟨rfl, dep, ig, fu, hig, hfu, hcd, rfl⟩
    simp only [List.append_assoc]
    refine P.bind_ok.2 ⟨_, _, (dword_ok.2 rfl), ?_⟩
    refine P.bind_ok.2 ⟨_, _, (tag_ok.2 ⟨rfl, rfl⟩), ?_⟩
    refine P.bind_ok.2 ⟨_, _, (word_ok.2 rfl), ?_⟩
    refine P.bind_ok.2 ⟨_, _, (word_ok.2 rfl), ?_⟩
    refine P.bind_ok.2 ⟨_, _, (word_ok.2 rfl), ?_⟩
    refine P.bind_ok.2 ⟨_, _, (parseColorDepth_ok.2 ⟨_, hcd, rfl⟩), ?_⟩
    refine P.bind_ok.2 ⟨_, _, (dword_ok.2 rfl), ?_⟩
    refine P.bind_ok.2 ⟨_, _, (word_ok.2 rfl), ?_⟩
    refine P.bind_ok.2 ⟨_, _, (tag_ok.2 ⟨rfl, rfl⟩), ?_⟩
    refine P.bind_ok.2 ⟨_, _, (tag_ok.2 ⟨rfl, rfl⟩), ?_⟩
    refine P.bind_ok.2 ⟨_, _, (byte_ok.2 rfl), ?_⟩
    refine P.bind_ok.2 ⟨_, _, (take_ok.2 ⟨hig, rfl⟩), ?_⟩
    refine P.bind_ok.2 ⟨_, _, (word_ok.2 rfl), ?_⟩
    refine P.bind_ok.2 ⟨_, _, (byte_ok.2 rfl), ?_⟩
    refine P.bind_ok.2 ⟨_, _, (byte_ok.2 rfl), ?_⟩
    refine P.bind_ok.2 ⟨_, _, (short_ok.2 rfl), ?_⟩
    refine P.bind_ok.2 ⟨_, _, (short_ok.2 rfl), ?_⟩
    refine P.bind_ok.2 ⟨_, _, (word_ok.2 rfl), ?_⟩
    refine P.bind_ok.2 ⟨_, _, (word_ok.2 rfl), ?_⟩
    refine P.bind_ok.2 ⟨_, _, (take_ok.2 ⟨hfu, (List.append_nil fu).symm⟩), ?_⟩
    refine P.bind_ok.2 ⟨_, _, (P.remaining_ok.2 ⟨rfl, rfl⟩), ?_⟩
    rfl

theorem isHeader_length {h : Header} {l : Bytes} (hl : IsHeader h l) : l.length = 128 := by
  obtain ⟨dep, ig, fu, hig, hfu, hcd, rfl⟩ := hl
  simp [hig, hfu]

theorem parses_header : Parses parseHeader IsHeader := by
  intro b r h
  simp only [parseHeader, P.bind_ok, take_ok, P.onSlice_ok, parseHeaderFields_ok]
  constructor
  · rintro ⟨l, _, ⟨_, rfl⟩, rfl, _, rfl, hl⟩; exact ⟨l, hl, rfl⟩
  · rintro ⟨l, hl, rfl⟩; exact ⟨l, r, ⟨isHeader_length hl, rfl⟩, rfl, [], rfl, hl⟩

/-! ## Old palette chunks -/

theorem u8_ofNat_toNat {n : Nat} (h : n < 256) : (UInt8.ofNat n).toNat = n := by
  simp [UInt8.toNat_ofNat', Nat.mod_eq_of_lt h]

theorem parses_packet : Parses parsePacket IsPacket := by
  intro b r p
  simp only [parsePacket, P.bind_ok, byte_ok, (Parses.of_eq @parseRgb_ok).count, P.pure_ok]
  constructor
  · rintro ⟨s, _, rfl, n, _, rfl, cs, _, ⟨hlen, l, hl, rfl⟩, rfl, rfl⟩
    have hn := n.toNat_lt
    refine ⟨[s] ++ [n] ++ l, ⟨l, ?_, ?_, hl, ?_⟩, by simp⟩
    · show 1 ≤ cs.length
      rw [hlen]; split
      · omega
      · next h0 =>
        have : n.toNat ≠ 0 := fun h => h0 (UInt8.toNat_inj.1 (by rw [h]; rfl))
        omega
    · show cs.length ≤ 256
      rw [hlen]; split <;> omega
    · show _ = [s] ++ [UInt8.ofNat cs.length] ++ l
      rw [hlen]; split
      · next h0 => subst h0; rfl
      · rw [UInt8.ofNat_toNat]
  · rintro ⟨_, ⟨l, h1, h2, hs, rfl⟩, rfl⟩
    obtain ⟨skip, colors⟩ := p
    simp only at h1 h2 hs
    refine ⟨skip, _, by simp only [List.append_assoc], UInt8.ofNat colors.length, _, rfl, colors, r,
      ⟨?_, l, hs, rfl⟩, rfl, rfl⟩
    by_cases h : colors.length = 256
    · rw [h]; rfl
    · rw [if_neg, u8_ofNat_toNat (by omega)]
      intro h0
      have := congrArg UInt8.toNat h0
      rw [u8_ofNat_toNat (by omega)] at this
      simp only [UInt8.toNat_zero] at this
      omega

theorem word_count_ok {n : Nat} {r b : Bytes} (h : n < 2 ^ 16) :
    (∃ x : UInt16, ∃ r', b = le16 x ++ r' ∧ x.toNat = n ∧ r' = r) ↔ b = leNat16 n ++ r := by
  constructor
  · rintro ⟨x, _, rfl, rfl, rfl⟩; rfl
  · rintro rfl
    exact ⟨UInt16.ofNat n, r, by rw [leNat16_eq h], by simp [UInt16.toNat_ofNat']; omega, rfl⟩

theorem parses_oldPalette : Parses parseOldPaletteChunk IsOldPalette := by
  intro b r p
  obtain ⟨packets⟩ := p
  simp only [parseOldPaletteChunk, P.bind_ok, word_ok, parses_packet.count, P.pure_ok]
  constructor
  · rintro ⟨n, _, rfl, ps, _, ⟨hlen, l, hl, rfl⟩, rfl, h⟩
    cases h
    exact ⟨le16 n ++ l, ⟨l, by simp only [hlen]; exact n.toNat_lt, hl, by simp only [hlen]; rfl⟩, by simp⟩
  · rintro ⟨_, ⟨l, h1, hs, rfl⟩, rfl⟩
    simp only at h1 hs
    refine ⟨UInt16.ofNat packets.length, l ++ r, by simp only [leNat16_eq h1, List.append_assoc], packets, r,
      ⟨by simp [UInt16.toNat_ofNat']; omega, l, hs, rfl⟩, rfl, rfl⟩

/-! ## Layer -/

theorem layerTypeOf_tilemap (w : UInt16) : layerTypeOf w = .tilemap ↔ w = 2 := by
  rw [← LayerType.ofWord_eq, LayerType.ofWord]
  constructor
  · intro h; split at h
    · cases h
    · split at h
      · cases h
      · split at h
        · assumption
        · cases h
  · rintro rfl; rfl

theorem parses_layer : Parses parseLayerChunk IsLayer := by
  intro b r c
  have hc : ∀ (ty : UInt16) {b r : Bytes} {x : Option UInt32},
      Ase.cond (decide (LayerType.ofWord ty = .tilemap)) dword b = .ok (r, x) ↔
        ∃ l, Opt (ty = 2) (As le32) x l ∧ b = l ++ r := fun ty =>
    (Parses.of_eq @dword_ok).cond_opt (by rw [decide_eq_true_iff, LayerType.ofWord_eq, layerTypeOf_tilemap])
  obtain ⟨cflags, cty, clevel, cblend, copa, cname, ctile, cud⟩ := c
  simp only [parseLayerChunk, P.bind_ok, word_ok, byte_ok, take_ok, parseString_ok, hc, P.pure_ok]
  constructor
  · rintro ⟨flags, _, rfl, ty, _, rfl, lv, _, rfl, w, _, rfl, h, _, rfl, bm, _, rfl, op, _, rfl, fu, _, ⟨hfu, rfl⟩,
      nm, _, ⟨hnm, rfl⟩, ti, _, ⟨l, hl, rfl⟩, rfl, he⟩
    cases he
    exact ⟨_, ⟨flags, ty, w, h, bm, fu, l, hfu, hnm, rfl, LayerType.ofWord_eq _, BlendMode.ofWord_eq _, hl, rfl, rfl⟩,
      by simp⟩
  · rintro ⟨_, ⟨flags, ty, w, h, bm, fu, l, hfu, hnm, hf, hty, hbm, hl, hud, rfl⟩, rfl⟩
    simp only at hnm hf hty hbm hl hud
    subst hty hbm hud
    simp only [List.append_assoc]
    refine ⟨flags, _, rfl, ty, _, rfl, _, _, rfl, w, _, rfl, h, _, rfl, bm, _, rfl, _, _, rfl, fu, _, ⟨hfu, rfl⟩,
      _, _, ⟨hnm, rfl⟩, ctile, r, ⟨l, hl, rfl⟩, rfl, ?_⟩
    obtain ⟨fb⟩ := cflags
    simp only at hf
    subst hf
    simp only [LayerType.ofWord_eq, BlendMode.ofWord_eq]
    rfl

/-! ## Cel -/

theorem celTypeOf_cases (ty : UInt16) : ty = 0 ∨ ty = 1 ∨ ty = 2 ∨ ty = 3 ∨
    (ty ≠ 0 ∧ ty ≠ 1 ∧ ty ≠ 2 ∧ ty ≠ 3 ∧ ∃ t, celTypeOf ty = .unknown t) := by
  by_cases h0 : ty = 0
  · exact .inl h0
  by_cases h1 : ty = 1
  · exact .inr (.inl h1)
  by_cases h2 : ty = 2
  · exact .inr (.inr (.inl h2))
  by_cases h3 : ty = 3
  · exact .inr (.inr (.inr (.inl h3)))
  refine .inr (.inr (.inr (.inr ⟨h0, h1, h2, h3, ?_⟩)))
  by_cases h4 : ty = 4
  · subst h4; exact ⟨0, rfl⟩
  · refine ⟨ty, ?_⟩
    rw [celTypeOf, if_neg h4, decodeBy, celTypes]
    simp [List.lookup, beq_eq_false_iff_ne.2 h0, beq_eq_false_iff_ne.2 h1, beq_eq_false_iff_ne.2 h2,
      beq_eq_false_iff_ne.2 h3]

theorem parseCelContent_ok {ty : UInt16} {b : Bytes} {x : CelContent} :
    (∃ r, parseCelContent (CelType.ofWord ty) b = .ok (r, x)) ↔ IsCelBody ty (swapFlips x) b := by
  rw [CelType.ofWord_eq]
  rcases celTypeOf_cases ty with rfl | rfl | rfl | rfl | ⟨h0, h1, h2, h3, t, ht⟩
  · rw [show celTypeOf 0 = .rawImageData from rfl]
    simp only [parseCelContent, P.bind_ok, word_ok, P.remaining_ok, P.pure_ok]
    constructor
    · rintro ⟨_, w, _, rfl, h, _, rfl, d, _, ⟨rfl, rfl⟩, rfl, rfl⟩
      exact ⟨.inl ⟨rfl, rfl⟩, by simp⟩
    · cases x with
      | image i =>
        obtain ⟨w, h, d, comp⟩ := i
        rintro ⟨⟨_, rfl⟩ | ⟨h, _⟩, rfl⟩
        · exact ⟨_, w, _, List.append_assoc .., h, _, rfl, d, _, ⟨rfl, rfl⟩, rfl, rfl⟩
        · cases h
      | linkedCel f => rintro ⟨h, _⟩; cases h
      | compressedTilemap => rintro ⟨h, _⟩; cases h
      | unknown => rintro ⟨h, _⟩; cases h
  · rw [show celTypeOf 1 = .linkedCel from rfl]
    simp only [parseCelContent, P.bind_ok, word_ok, P.pure_ok]
    constructor
    · rintro ⟨_, w, r, rfl, rfl, rfl⟩
      exact ⟨rfl, r, rfl⟩
    · cases x with
      | image i => rintro ⟨⟨h, _⟩ | ⟨h, _⟩, _⟩ <;> cases h
      | linkedCel f => rintro ⟨_, e, rfl⟩; exact ⟨e, f, e, rfl, rfl, rfl⟩
      | compressedTilemap => rintro ⟨h, _⟩; cases h
      | unknown => rintro ⟨h, _⟩; cases h
  · rw [show celTypeOf 2 = .compressedImage from rfl]
    simp only [parseCelContent, P.bind_ok, word_ok, P.remaining_ok, P.pure_ok]
    constructor
    · rintro ⟨_, w, _, rfl, h, _, rfl, d, _, ⟨rfl, rfl⟩, rfl, rfl⟩
      exact ⟨.inr ⟨rfl, rfl⟩, by simp⟩
    · cases x with
      | image i =>
        obtain ⟨w, h, d, comp⟩ := i
        rintro ⟨⟨h, _⟩ | ⟨_, rfl⟩, rfl⟩
        · cases h
        · exact ⟨_, w, _, List.append_assoc .., h, _, rfl, d, _, ⟨rfl, rfl⟩, rfl, rfl⟩
      | linkedCel f => rintro ⟨h, _⟩; cases h
      | compressedTilemap => rintro ⟨h, _⟩; cases h
      | unknown => rintro ⟨h, _⟩; cases h
  · rw [show celTypeOf 3 = .compressedTilemap from rfl]
    simp only [parseCelContent, P.bind_ok, word_ok, dword_ok, take_ok, P.remaining_ok, P.pure_ok]
    constructor
    · rintro ⟨_, w, _, rfl, h, _, rfl, bt, _, rfl, ti, _, rfl, yf, _, rfl, xf, _, rfl, df, _, rfl, res, _, ⟨hres, rfl⟩,
        d, _, ⟨rfl, rfl⟩, rfl, rfl⟩
      exact ⟨rfl, res, hres, by simp⟩
    · cases x with
      | image i => rintro ⟨⟨h, _⟩ | ⟨h, _⟩, _⟩ <;> cases h
      | linkedCel f => rintro ⟨h, _⟩; cases h
      | compressedTilemap w h bt ti xf yf df d =>
        rintro ⟨_, res, hres, rfl⟩
        simp only [List.append_assoc]
        exact ⟨d, w, _, rfl, h, _, rfl, bt, _, rfl, ti, _, rfl, yf, _, rfl, xf, _, rfl, df, _, rfl, res, _,
          ⟨hres, rfl⟩, d, _, ⟨rfl, rfl⟩, rfl, rfl⟩
      | unknown => rintro ⟨h, _⟩; cases h
  · rw [ht]
    simp only [parseCelContent, P.bind_ok, P.remaining_ok, P.pure_ok]
    constructor
    · rintro ⟨_, d, _, ⟨rfl, rfl⟩, rfl, rfl⟩
      exact ⟨ht, rfl⟩
    · cases x with
      | image i => 
        rintro ⟨⟨h, _⟩ | ⟨h, _⟩, _⟩
        · exact absurd h h0
        · exact absurd h h2
      | linkedCel f => rintro ⟨h, _⟩; exact absurd h h1
      | compressedTilemap => rintro ⟨h, _⟩; exact absurd h h3
      | unknown t' d =>
        rintro ⟨h, rfl⟩
        rw [ht] at h
        cases h
        exact ⟨_, _, _, ⟨rfl, rfl⟩, rfl, rfl⟩

theorem parseCelChunk_ok {b r : Bytes} {c : CelChunk} :
    parseCelChunk b = .ok (r, c) ↔ r = [] ∧ IsCel { c with content := swapFlips c.content } b := by
  simp only [parseCelChunk, P.bind_ok, word_ok, short_ok, byte_ok, take_ok, P.skipRest_ok, P.pure_ok]
  constructor
  · rintro ⟨li, _, rfl, x, _, rfl, y, _, rfl, op, _, rfl, ty, _, rfl, z, _, rfl, fu, _, ⟨hfu, rfl⟩, ct, _, hct, _, _,
      rfl, rfl, rfl⟩
    exact ⟨rfl, ty, fu, _, hfu, parseCelContent_ok.1 ⟨_, hct⟩, rfl, by simp⟩
  · obtain ⟨li, x, y, op, z, ct, ud⟩ := c
    rintro ⟨rfl, ty, fu, body, hfu, hb, hud, rfl⟩
    simp only at hb hud
    subst hud
    obtain ⟨r, hr⟩ := parseCelContent_ok.2 hb
    simp only [List.append_assoc]
    exact ⟨_, _, rfl, _, _, rfl, _, _, rfl, _, _, rfl, ty, _, rfl, _, _, rfl, fu, _, ⟨hfu, rfl⟩, ct, _, hr, (), _,
      rfl, rfl, rfl⟩

/-! ## Cel extra -/

theorem parseCelExtraChunk_ok {b r : Bytes} {c : CelExtraChunk} :
    parseCelExtraChunk b = .ok (r, c) ↔ r = [] ∧ IsCelExtra c b := by
  simp only [parseCelExtraChunk, P.bind_ok, dword_ok, fixed_ok, P.remaining_ok, P.skipRest_ok, P.pure_ok]
  constructor
  · rintro ⟨fl, _, rfl, x, _, rfl, y, _, rfl, w, _, rfl, h, _, rfl, fu, _, ⟨rfl, rfl⟩, _, _, rfl, rfl, rfl⟩
    exact ⟨rfl, fl, rfl, by simp⟩
  · obtain ⟨⟨bits⟩, x, y, w, h, fu⟩ := c
    rintro ⟨rfl, fl, hfl, rfl⟩
    simp only at hfl
    subst hfl
    simp only [List.append_assoc]
    exact ⟨fl, _, rfl, x, _, rfl, y, _, rfl, w, _, rfl, h, _, rfl, fu, _, ⟨rfl, rfl⟩, (), _, rfl, rfl, rfl⟩

/-! ## Colour profile -/

theorem colorProfileTypeOf_cases (ty : UInt16) : ty = 0 ∨ ty = 1 ∨ ty = 2 ∨
    (ty ≠ 0 ∧ ty ≠ 1 ∧ ty ≠ 2 ∧ ∃ t, colorProfileTypeOf ty = .unknown t) := by
  by_cases h0 : ty = 0
  · exact .inl h0
  by_cases h1 : ty = 1
  · exact .inr (.inl h1)
  by_cases h2 : ty = 2
  · exact .inr (.inr (.inl h2))
  refine .inr (.inr (.inr ⟨h0, h1, h2, ?_⟩))
  by_cases h4 : ty = 3
  · subst h4; exact ⟨0, rfl⟩
  · refine ⟨ty, ?_⟩
    rw [colorProfileTypeOf, if_neg h4, decodeBy, colorProfileTypes]
    simp [List.lookup, beq_eq_false_iff_ne.2 h0, beq_eq_false_iff_ne.2 h1, beq_eq_false_iff_ne.2 h2]

theorem parseTiles_ok : Parses parseTiles IsTiles := by
  intro b r d
  simp only [parseTiles, P.bind_ok, dword_ok, take_ok]
  constructor
  · rintro ⟨n, _, rfl, hl, rfl⟩
    exact ⟨_, ⟨by rw [hl]; exact n.toNat_lt, rfl⟩, by rw [hl, leNat32, ← List.append_assoc]; rfl⟩
  · rintro ⟨_, ⟨hl, rfl⟩, rfl⟩
    exact ⟨UInt32.ofNat d.length, _, by rw [leNat32_eq hl, List.append_assoc],
      by simp [UInt32.toNat_ofNat']; omega, rfl⟩

/-- The profile dependent part of `IsColorProfile`. -/
def IsProfileBody (type : UInt16) (p : ColorProfile) (icc : Bytes) : Prop :=
  match p with
  | .noColorProfile => type = 0 ∧ icc = []
  | .srgb => type = 1 ∧ icc = []
  | .embeddedICC data => type = 2 ∧ data.length < 2 ^ 32 ∧ icc = leNat32 data.length ++ data
  | .unknown t => colorProfileTypeOf type = .unknown t ∧ icc = []

theorem parses_profileBody (ty : UInt16) :
    Parses (parseColorProfileBody (ColorProfileType.ofWord ty)) (IsProfileBody ty) := by
  intro b r x
  rw [ColorProfileType.ofWord_eq]
  rcases colorProfileTypeOf_cases ty with rfl | rfl | rfl | ⟨h0, h1, h2, t, ht⟩
  · rw [show colorProfileTypeOf 0 = .noColorProfile from rfl]
    simp only [parseColorProfileBody, P.pure_ok]
    constructor
    · rintro ⟨rfl, rfl⟩; exact ⟨[], ⟨rfl, rfl⟩, by simp⟩
    · cases x with
      | noColorProfile => rintro ⟨_, ⟨_, rfl⟩, rfl⟩; exact ⟨by simp, rfl⟩
      | srgb => rintro ⟨_, ⟨h, _⟩, _⟩; cases h
      | embeddedICC => rintro ⟨_, ⟨h, _⟩, _⟩; cases h
      | unknown => rintro ⟨_, ⟨h, _⟩, _⟩; cases h
  · rw [show colorProfileTypeOf 1 = .srgb from rfl]
    simp only [parseColorProfileBody, P.pure_ok]
    constructor
    · rintro ⟨rfl, rfl⟩; exact ⟨[], ⟨rfl, rfl⟩, by simp⟩
    · cases x with
      | noColorProfile => rintro ⟨_, ⟨h, _⟩, _⟩; cases h
      | srgb => rintro ⟨_, ⟨_, rfl⟩, rfl⟩; exact ⟨by simp, rfl⟩
      | embeddedICC => rintro ⟨_, ⟨h, _⟩, _⟩; cases h
      | unknown => rintro ⟨_, ⟨h, _⟩, _⟩; cases h
  · rw [show colorProfileTypeOf 2 = .embeddedICC from rfl]
    have : parseColorProfileBody .embeddedICC = (do let d ← parseTiles; pure (.embeddedICC d)) := by
      funext b
      simp only [parseColorProfileBody, parseTiles, P.bind_def, P.bind]
      cases dword b with
      | ok v => obtain ⟨r, n⟩ := v; rfl
      | err => rfl
      | panic => rfl
    simp only [this, P.bind_ok, P.pure_ok, parseTiles_ok _ _ _]
    constructor
    · rintro ⟨d, _, ⟨l, ⟨hl, rfl⟩, rfl⟩, rfl, rfl⟩; exact ⟨_, ⟨rfl, hl, rfl⟩, rfl⟩
    · cases x with
      | noColorProfile => rintro ⟨_, ⟨h, _⟩, _⟩; cases h
      | srgb => rintro ⟨_, ⟨h, _⟩, _⟩; cases h
      | embeddedICC d => rintro ⟨_, ⟨_, hl, rfl⟩, rfl⟩; exact ⟨d, _, ⟨_, ⟨hl, rfl⟩, rfl⟩, rfl, rfl⟩
      | unknown => rintro ⟨_, ⟨h, _⟩, _⟩; cases h
  · rw [ht]
    simp only [parseColorProfileBody, P.pure_ok]
    constructor
    · rintro ⟨rfl, rfl⟩; exact ⟨[], ⟨ht, rfl⟩, by simp⟩
    · cases x with
      | noColorProfile => rintro ⟨_, ⟨h, _⟩, _⟩; exact absurd h h0
      | srgb => rintro ⟨_, ⟨h, _⟩, _⟩; exact absurd h h1
      | embeddedICC => rintro ⟨_, ⟨h, _⟩, _⟩; exact absurd h h2
      | unknown =>
        rintro ⟨_, ⟨h, rfl⟩, rfl⟩
        rw [ht] at h
        cases h
        exact ⟨by simp, rfl⟩

theorem parses_colorProfile : Parses parseColorProfile IsColorProfile := by
  intro b r c
  simp only [parseColorProfile, P.bind_ok, word_ok, fixed_ok, take_ok, parses_profileBody _ _ _ _, P.pure_ok,
    colorProfile_fixedGamma_and]
  constructor
  · rintro ⟨ty, _, rfl, fl, _, rfl, g, _, rfl, res, _, ⟨hres, rfl⟩, p, _, ⟨l, hl, rfl⟩, rfl, rfl⟩
    exact ⟨_, ⟨ty, fl, g, res, l, hres, rfl, hl, rfl⟩, by simp⟩
  · obtain ⟨cg, cp⟩ := c
    rintro ⟨_, ⟨ty, fl, g, res, l, hres, hg, hl, rfl⟩, rfl⟩
    simp only at hg hl
    subst hg
    simp only [List.append_assoc]
    exact ⟨ty, _, rfl, fl, _, rfl, g, _, rfl, res, _, ⟨hres, rfl⟩, cp, _, ⟨l, hl, rfl⟩, rfl, rfl⟩

/-! ## External files -/

theorem parses_externalFile : Parses parseExternalFile IsExternalFile := by
  intro b r c
  simp only [parseExternalFile, P.bind_ok, dword_ok, byte_ok, take_ok, parseString_ok, P.pure_ok]
  constructor
  · rintro ⟨id, _, rfl, ty, _, rfl, res, _, ⟨hres, rfl⟩, nm, _, ⟨hnm, rfl⟩, rfl, rfl⟩
    exact ⟨_, ⟨ty, res, hres, hnm, ExternalFileType.ofByte_eq _, rfl⟩, by simp⟩
  · obtain ⟨cid, cty, cnm⟩ := c
    rintro ⟨_, ⟨ty, res, hres, hnm, hty, rfl⟩, rfl⟩
    simp only at hty hnm
    subst hty
    simp only [List.append_assoc]
    refine ⟨cid, _, rfl, ty, _, rfl, res, _, ⟨hres, rfl⟩, cnm, _, ⟨hnm, rfl⟩, rfl, ?_⟩
    rw [ExternalFileType.ofByte_eq]

theorem parses_externalFiles : Parses parseExternalFilesChunk IsExternalFiles := by
  intro b r c
  simp only [parseExternalFilesChunk, P.bind_ok, parseDwordAsUsize_ok, take_ok, parses_externalFile.count, P.pure_ok]
  constructor
  · rintro ⟨n, _, ⟨hn, rfl⟩, res, _, ⟨hres, rfl⟩, fs, _, ⟨rfl, l, hl, rfl⟩, rfl, rfl⟩
    exact ⟨_, ⟨res, l, hres, hn, hl, rfl⟩, by simp⟩
  · obtain ⟨fs⟩ := c
    rintro ⟨_, ⟨res, l, hres, hn, hl, rfl⟩, rfl⟩
    simp only [List.append_assoc]
    exact ⟨_, _, ⟨hn, rfl⟩, res, _, ⟨hres, rfl⟩, fs, _, ⟨rfl, l, hl, rfl⟩, rfl, rfl⟩

/-! ## Mask -/

theorem parseMaskChunk_ok {b r : Bytes} {c : MaskChunk} :
    parseMaskChunk b = .ok (r, c) ↔ r = [] ∧ IsMask c b := by
  simp only [parseMaskChunk, P.bind_ok, word_ok, short_ok, take_ok, parseString_ok, P.remaining_ok, P.skipRest_ok,
    P.pure_ok]
  constructor
  · rintro ⟨x, _, rfl, y, _, rfl, w, _, rfl, h, _, rfl, fu, _, ⟨hfu, rfl⟩, nm, _, ⟨hnm, rfl⟩, d, _, ⟨rfl, rfl⟩, _, _,
      rfl, rfl, rfl⟩
    exact ⟨rfl, fu, hfu, hnm, by simp⟩
  · obtain ⟨x, y, w, h, nm, d⟩ := c
    rintro ⟨rfl, fu, hfu, hnm, rfl⟩
    simp only [List.append_assoc]
    exact ⟨x, _, rfl, y, _, rfl, w, _, rfl, h, _, rfl, fu, _, ⟨hfu, rfl⟩, nm, _, ⟨hnm, rfl⟩, d, _, ⟨rfl, rfl⟩, (), _,
      rfl, rfl, rfl⟩

/-! ## Tags -/

theorem color3_ok {c r b : Bytes} {x : UInt8 × UInt8 × UInt8} (hc : c.length = 3) :
    color3 c b = .ok (r, x) ↔ b = r ∧ c = [x.1, x.2.1, x.2.2] := by
  match c, hc with
  | [c0, c1, c2], _ =>
    obtain ⟨x0, x1, x2⟩ := x
    simp only [color3, P.pure_ok, Prod.mk.injEq, List.cons.injEq, and_true]
    constructor
    · rintro ⟨rfl, rfl, rfl, rfl⟩; exact ⟨rfl, rfl, rfl, rfl⟩
    · rintro ⟨rfl, rfl, rfl, rfl⟩; exact ⟨rfl, rfl, rfl, rfl⟩

theorem parses_tag : Parses parseTag IsTag := by
  intro b r t
  unfold parseTag
  constructor
  · intro H0
    obtain ⟨f, _, e, H1⟩ := P.bind_ok.1 H0; clear H0
    obtain rfl := word_ok.1 e; clear e
    obtain ⟨g, _, e, H2⟩ := P.bind_ok.1 H1; clear H1
    obtain rfl := word_ok.1 e; clear e
    split at H2
    · cases H2
    · next hle =>
      simp only [P.bind_ok, byte_ok, word_ok, take_ok, parseString_ok, P.pure_ok] at H2
      obtain ⟨d, _, rfl, rp, _, rfl, fu, _, ⟨hfu, rfl⟩, cl, _, ⟨hcl, rfl⟩, ex, _, rfl, nm, _, ⟨hnm, rfl⟩, cl', _, hcl', rfl, rfl⟩ := H2
      obtain ⟨rfl, rfl⟩ := (color3_ok hcl).1 hcl'
      refine ⟨_, ⟨d, ex, fu, hfu, hnm, ?_, AnimationDirection.ofByte_eq _, rfl, rfl⟩, by simp⟩
      simpa [UInt16.lt_iff_toNat_lt] using hle
  · obtain ⟨f, g, dir, rp, cl, nm, ud⟩ := t
    rintro ⟨_, ⟨d, ex, fu, hfu, hnm, hle, hdir, hud, rfl⟩, rfl⟩
    simp only at hnm hle hdir hud
    subst hdir hud
    simp only [List.append_assoc]
    refine P.bind_ok.2 ⟨f, _, word_ok.2 rfl, P.bind_ok.2 ⟨g, _, word_ok.2 rfl, ?_⟩⟩
    rw [if_neg (by simpa [UInt16.lt_iff_toNat_lt] using hle)]
    simp only [P.bind_ok, byte_ok, word_ok, take_ok, parseString_ok, P.pure_ok]
    refine ⟨d, _, rfl, rp, _, rfl, fu, _, ⟨hfu, rfl⟩, _, _, ⟨rfl, rfl⟩, ex, _, rfl, nm, _, ⟨hnm, rfl⟩, cl, r,
      (color3_ok rfl).2 ⟨rfl, rfl⟩, rfl, ?_⟩
    rw [AnimationDirection.ofByte_eq]

theorem parses_tags : Parses parseTagsChunk IsTags := by
  intro b r c
  simp only [parseTagsChunk, P.bind_ok, word_ok, take_ok, parses_tag.count, P.pure_ok]
  constructor
  · rintro ⟨n, _, rfl, fu, _, ⟨hfu, rfl⟩, ts, _, ⟨hlen, l, hl, rfl⟩, rfl, rfl⟩
    refine ⟨_, ⟨fu, l, hfu, by simp only [hlen]; exact n.toNat_lt, hl, rfl⟩, ?_⟩
    simp only [List.append_assoc, hlen]; rfl
  · obtain ⟨ts⟩ := c
    rintro ⟨_, ⟨fu, l, hfu, hn, hl, rfl⟩, rfl⟩
    simp only at hn hl
    exact ⟨UInt16.ofNat ts.length, _, by simp only [leNat16_eq hn, List.append_assoc], fu, _, ⟨hfu, rfl⟩, ts, _,
      ⟨by simp [UInt16.toNat_ofNat']; omega, l, hl, rfl⟩, rfl, rfl⟩

/-! ## Palette -/

theorem parseDwordAsU8_ok {e : ParseError} {b r : Bytes} {n : UInt8} :
    parseDwordAsU8 e b = .ok (r, n) ↔ b = leNat32 n.toNat ++ r := by
  simp only [parseDwordAsU8, P.bind_ok, dword_ok]
  constructor
  · rintro ⟨x, _, rfl, h⟩
    split at h
    · next hx =>
      obtain ⟨rfl, rfl⟩ := P.pure_ok.1 h
      rw [u8_ofNat_toNat hx]; rfl
    · cases h
  · rintro rfl
    have hn := n.toNat_lt
    have e : (UInt32.ofNat n.toNat).toNat = n.toNat := by simp
    refine ⟨UInt32.ofNat n.toNat, r, by rw [leNat32_eq (by omega)], ?_⟩
    rw [if_pos (by rw [e]; omega), e, UInt8.ofNat_toNat]; rfl

theorem parses_paletteEntry : Parses parsePaletteEntry IsPaletteEntry := by
  intro b r c
  simp only [parsePaletteEntry, P.bind_ok, word_ok, parseColor_ok,
    parses_string.cond_opt (paletteEntry_hasName _), P.pure_ok]
  constructor
  · rintro ⟨fl, _, rfl, cl, _, rfl, nm, _, ⟨l, hl, rfl⟩, rfl, rfl⟩
    exact ⟨_, ⟨fl, l, hl, rfl⟩, by simp⟩
  · obtain ⟨cl, nm⟩ := c
    rintro ⟨_, ⟨fl, l, hl, rfl⟩, rfl⟩
    simp only [List.append_assoc]
    exact ⟨fl, _, rfl, cl, _, rfl, nm, _, ⟨l, hl, rfl⟩, rfl, rfl⟩

theorem parses_palette : Parses parsePaletteChunk (fun c => IsPalette c.entries.length c) := by
  intro b r c
  unfold parsePaletteChunk
  constructor
  · intro H0
    obtain ⟨n, _, e, H1⟩ := P.bind_ok.1 H0; clear H0
    obtain ⟨hn, rfl⟩ := parseDwordAsUsize_ok.1 e; clear e
    obtain ⟨f, _, e, H2⟩ := P.bind_ok.1 H1; clear H1
    obtain rfl := parseDwordAsU8_ok.1 e; clear e
    obtain ⟨g, _, e, H3⟩ := P.bind_ok.1 H2; clear H2
    obtain rfl := parseDwordAsU8_ok.1 e; clear e
    split at H3
    · cases H3
    · next hle =>
      simp only [P.bind_ok, take_ok, parses_paletteEntry.count, P.pure_ok] at H3
      obtain ⟨fu, _, ⟨hfu, rfl⟩, es, _, ⟨rfl, l, hl, rfl⟩, rfl, rfl⟩ := H3
      refine ⟨_, ⟨fu, l, hfu, hn, ?_, hl, rfl⟩, by simp⟩
      simpa [UInt8.lt_iff_toNat_lt] using hle
  · obtain ⟨f, g, es⟩ := c
    rintro ⟨_, ⟨fu, l, hfu, hn, hle, hl, rfl⟩, rfl⟩
    simp only at hn hle hl
    simp only [List.append_assoc]
    refine P.bind_ok.2 ⟨_, _, parseDwordAsUsize_ok.2 ⟨hn, rfl⟩, P.bind_ok.2 ⟨f, _, parseDwordAsU8_ok.2 rfl,
      P.bind_ok.2 ⟨g, _, parseDwordAsU8_ok.2 rfl, ?_⟩⟩⟩
    rw [if_neg (by simpa [UInt8.lt_iff_toNat_lt] using hle)]
    simp only [P.bind_ok, take_ok, parses_paletteEntry.count, P.pure_ok]
    exact ⟨fu, _, ⟨hfu, rfl⟩, es, _, ⟨rfl, l, hl, rfl⟩, rfl, rfl⟩

/-! ## Slice -/

theorem parseNinePatch_ok {b r : Bytes} {x : NinePatch} : parseNinePatch b = .ok (r, x) ↔ b = ninePatch x ++ r := by
  simp only [parseNinePatch, P.bind_ok, long_ok, dword_ok, P.pure_ok, ninePatch]
  constructor
  · rintro ⟨x, _, rfl, y, _, rfl, w, _, rfl, h, _, rfl, rfl, rfl⟩; simp
  · obtain ⟨x, y, w, h⟩ := x
    rintro rfl
    simp only [List.append_assoc]
    exact ⟨x, _, rfl, y, _, rfl, w, _, rfl, h, _, rfl, rfl, rfl⟩

theorem parsePivot_ok {b r : Bytes} {x : Pivot} : parsePivot b = .ok (r, x) ↔ b = pivot x ++ r := by
  simp only [parsePivot, P.bind_ok, long_ok, P.pure_ok, pivot]
  constructor
  · rintro ⟨x, _, rfl, y, _, rfl, rfl, rfl⟩; simp
  · obtain ⟨x, y⟩ := x
    rintro rfl
    simp only [List.append_assoc]
    exact ⟨x, _, rfl, y, _, rfl, rfl, rfl⟩

theorem parses_sliceKey (flags : UInt32) :
    Parses (parseSliceKey (SliceFlags.fromBitsTruncate flags)) (IsSliceKey flags) := by
  intro b r k
  simp only [parseSliceKey, P.bind_ok, long_ok, dword_ok, P.pure_ok,
    (Parses.of_eq @parseNinePatch_ok).cond_opt (slice_ninePatch flags),
    (Parses.of_eq @parsePivot_ok).cond_opt (slice_pivot flags)]
  constructor
  · rintro ⟨fr, _, rfl, x, _, rfl, y, _, rfl, w, _, rfl, h, _, rfl, n, _, ⟨ln, hn, rfl⟩, p, _, ⟨lp, hp, rfl⟩, rfl, rfl⟩
    exact ⟨_, ⟨ln, lp, hn, hp, rfl⟩, by simp⟩
  · obtain ⟨fr, x, y, w, h, n, p⟩ := k
    rintro ⟨_, ⟨ln, lp, hn, hp, rfl⟩, rfl⟩
    simp only [List.append_assoc]
    exact ⟨fr, _, rfl, x, _, rfl, y, _, rfl, w, _, rfl, h, _, rfl, n, _, ⟨ln, hn, rfl⟩, p, _, ⟨lp, hp, rfl⟩, rfl, rfl⟩

theorem parses_slice : Parses parseSliceChunk IsSlice := by
  intro b r c
  simp only [parseSliceChunk, P.bind_ok, parseDwordAsUsize_ok, dword_ok, parseString_ok,
    (parses_sliceKey _).count, P.pure_ok]
  constructor
  · rintro ⟨n, _, ⟨hn, rfl⟩, fl, _, rfl, res, _, rfl, nm, _, ⟨hnm, rfl⟩, ks, _, ⟨rfl, l, hl, rfl⟩, rfl, rfl⟩
    exact ⟨_, ⟨fl, res, l, hn, hnm, rfl, rfl, hl, rfl⟩, by simp⟩
  · obtain ⟨nm, ⟨bits⟩, ks, ud⟩ := c
    rintro ⟨_, ⟨fl, res, l, hn, hnm, hfl, hud, hl, rfl⟩, rfl⟩
    simp only at hn hnm hfl hud hl
    subst hfl hud
    simp only [List.append_assoc]
    exact ⟨_, _, ⟨hn, rfl⟩, fl, _, rfl, res, _, rfl, nm, _, ⟨hnm, rfl⟩, ks, _, ⟨rfl, l, hl, rfl⟩, rfl, rfl⟩

/-! ## Tileset -/

theorem parseTilesetExternalFile_ok {b r : Bytes} {x : TilesetExternalFile} :
    parseTilesetExternalFile b = .ok (r, x) ↔ b = tilesetExternal x ++ r := by
  simp only [parseTilesetExternalFile, P.bind_ok, dword_ok, P.pure_ok, tilesetExternal]
  constructor
  · rintro ⟨x, _, rfl, y, _, rfl, rfl, rfl⟩; simp
  · obtain ⟨x, y⟩ := x
    rintro rfl
    simp only [List.append_assoc]
    exact ⟨x, _, rfl, y, _, rfl, rfl, rfl⟩

theorem parses_tileset : Parses parseTilesetChunk IsTileset := by
  intro b r c
  simp only [parseTilesetChunk, P.bind_ok, dword_ok, word_ok, short_ok, take_ok, parseString_ok, P.pure_ok,
    (Parses.of_eq @parseTilesetExternalFile_ok).cond_opt (tileset_externalFile _),
    parseTiles_ok.cond_opt (tileset_tiles _)]
  constructor
  · rintro ⟨id, _, rfl, fl, _, rfl, nt, _, rfl, w, _, rfl, h, _, rfl, bi, _, rfl, res, _, ⟨hres, rfl⟩, nm, _,
      ⟨hnm, rfl⟩, e, _, ⟨le, he, rfl⟩, t, _, ⟨lt, ht, rfl⟩, rfl, rfl⟩
    exact ⟨_, ⟨fl, res, le, lt, hres, hnm, rfl, he, ht, rfl⟩, by simp⟩
  · obtain ⟨id, ⟨bits⟩, nt, w, h, bi, nm, e, t⟩ := c
    rintro ⟨_, ⟨fl, res, le, lt, hres, hnm, hfl, he, ht, rfl⟩, rfl⟩
    simp only at hnm hfl he ht
    subst hfl
    simp only [List.append_assoc]
    exact ⟨id, _, rfl, fl, _, rfl, nt, _, rfl, w, _, rfl, h, _, rfl, bi, _, rfl, res, _, ⟨hres, rfl⟩, nm, _,
      ⟨hnm, rfl⟩, e, _, ⟨le, he, rfl⟩, t, _, ⟨lt, ht, rfl⟩, rfl, rfl⟩

end Ase
