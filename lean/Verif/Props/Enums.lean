import Verif.Props.Codes
import Verif.Props.Header
import Verif.Props.Layouts
import Verif.Spec.Image
import Verif.Spec.Sample

/-!
# C19, C20, C26, C42: codes in parsed records, the accessors of colour depths and of raw frames
-/

namespace Ase

open Spec

/-- The bytes `m` are in `b` at offset `k`. -/
def Spec.HasAt (b : Bytes) (k : Nat) (m : Bytes) : Prop := ∃ p s, p.length = k ∧ b = p ++ m ++ s

theorem hasAt_end {p m : Bytes} {k : Nat} (h : p.length = k) : HasAt (p ++ m) k m := ⟨p, [], h, by simp⟩

theorem hasAt_append {b m s : Bytes} {k : Nat} (h : HasAt b k m) : HasAt (b ++ s) k m := by
  obtain ⟨p, t, hk, rfl⟩ := h
  exact ⟨p, t ++ s, hk, by simp⟩

/-- **C19 (partial), parsed records.** The codes stored in headers, layers, cels, tags, colour profiles and entries of
external files arrive in what the parsers return: a listed code as its meaning, any other as `Unknown` with the stored
number.  *Missing:* the five codes of `C19_unknown_code_lost`, which are excepted here. -/
theorem C19_parsed_partial (b r : Bytes) :
    (∀ h, parseHeader b = .ok (r, h) → ∃ w, HasAt b 12 (le16 w) ∧ h.colorDepth = decodeBy colorDepths .unknown w) ∧
    (∀ c, parseLayerChunk b = .ok (r, c) → ∃ w v, HasAt b 2 (le16 w) ∧ HasAt b 10 (le16 v) ∧
      c.layerType = decodeBy layerTypes .unknown w ∧ (v ≠ 19 → c.blendMode = decodeBy blendModes .unknown v)) ∧
    (∀ c, parseCelChunk b = .ok (r, c) → ∃ w, HasAt b 7 (le16 w) ∧
      ((∃ v data, c.content = .unknown v data) ↔ ∀ p ∈ celTypes, w ≠ p.1) ∧
      (∀ v data, c.content = .unknown v data → data = b.drop 16 ∧ (w ≠ 4 → v = w))) ∧
    (∀ t, parseTag b = .ok (r, t) → ∃ w, HasAt b 4 [w] ∧
      (w ≠ 4 → t.animationDirection = decodeBy animationDirections .unknown w)) ∧
    (∀ c, parseColorProfile b = .ok (r, c) → ∃ w, HasAt b 0 (le16 w) ∧
      (c.profile = .noColorProfile ↔ w = 0) ∧ (c.profile = .srgb ↔ w = 1) ∧
      ((∃ data, c.profile = .embeddedICC data) ↔ w = 2) ∧
      (∀ v, c.profile = .unknown v → w ≠ 3 → v = w)) ∧
    (∀ e, parseExternalFile b = .ok (r, e) → ∃ w, HasAt b 4 [w] ∧
      (w ≠ 3 → e.fileType = decodeBy externalFileTypes .unknown w)) ∧
    (∀ m, parseBlendMode b = .ok (r, m) → ∃ w, b = le16 w ++ r ∧ (w ≠ 19 → m = decodeBy blendModes .unknown w)) ∧
    (∀ d, parseColorDepth b = .ok (r, d) → ∃ w, b = le16 w ++ r ∧ d = decodeBy colorDepths .unknown w) := by
  refine ⟨?_, ?_, ?_, ?_, ?_, ?_, ?_, ?_⟩
  · intro h hok
    obtain ⟨l, hl, hb⟩ := ((C03_header b).1 r h).1 hok
    obtain ⟨depth, ig, fu, _, _, hd, hl⟩ := hl
    rw [hl] at hb
    refine ⟨depth, ?_, hd⟩
    rw [hb]
    repeat' (with_reducible first | refine hasAt_end ?_ | refine hasAt_append ?_)
    rfl
  · intro c hok
    obtain ⟨l, ⟨fl, ty, dw, dh, bl, fu, ti, _, _, _, ht, hb, _, _, rfl⟩, rfl⟩ := ((C11_layer b).1 r c).1 hok
    refine ⟨ty, bl, ?_, ?_, ht, fun hv => ?_⟩
    · repeat' (with_reducible first | refine hasAt_end ?_ | refine hasAt_append ?_)
      rfl
    · repeat' (with_reducible first | refine hasAt_end ?_ | refine hasAt_append ?_)
      rfl
    · rw [hb, blendModeOf, if_neg hv]
  · intro c hok
    obtain ⟨_, ty, fu, body, hfu, hbody, _, hb⟩ := ((C12_cel_partial b).1 r c).1 hok
    refine ⟨ty, ?_, ?_, ?_⟩
    · rw [hb]
      repeat' (with_reducible first | refine hasAt_end ?_ | refine hasAt_append ?_)
      rfl
    · constructor
      · rintro ⟨v, data, h⟩
        rw [h] at hbody
        have := hbody.1
        intro p hp
        simp only [celTypes, List.mem_cons, List.not_mem_nil, or_false] at hp
        rcases hp with rfl | rfl | rfl | rfl <;> (rintro rfl; cases this)
      · intro h
        simp only [celTypes, List.mem_cons, List.not_mem_nil, or_false, forall_eq_or_imp, forall_eq] at h
        cases hc : c.content with
        | unknown v data => exact ⟨v, data, rfl⟩
        | image im => rw [hc] at hbody; rcases hbody.1 with h' | h' <;> simp_all
        | linkedCel p => rw [hc] at hbody; exact absurd hbody.1 h.2.1
        | compressedTilemap _ _ _ _ _ _ _ _ => rw [hc] at hbody; exact absurd hbody.1 h.2.2.2
    · intro v data h
      rw [h] at hbody
      obtain ⟨h1, rfl⟩ := hbody
      constructor
      · have hl : 16 = (le16 c.layerIndex ++ les16 c.x ++ les16 c.y ++ [c.opacity] ++ le16 ty ++ les16 c.zIndex ++ fu).length := by
          simp [le16, les16, hfu]
        rw [hb, hl]
        exact List.drop_left.symm
      · intro hw
        rw [celTypeOf, if_neg hw] at h1
        simp only [decodeBy, celTypes, List.lookup] at h1
        repeat' split at h1
        all_goals first | (cases h1; done) | (injection h1 with h1; exact h1.symm)
  · intro t hok
    obtain ⟨l, ⟨di, ex, fu, _, _, _, hd, _, rfl⟩, rfl⟩ := (parses_tag b r t).1 hok
    refine ⟨di, ?_, fun hv => ?_⟩
    · repeat' (with_reducible first | refine hasAt_end ?_ | refine hasAt_append ?_)
      rfl
    · rw [hd, animationDirectionOf, if_neg hv]
  · intro c hok
    obtain ⟨l, ⟨ty, fl, ga, re, icc, _, _, hp, rfl⟩, rfl⟩ := ((C18_auxiliary b).1 r c).1 hok
    refine ⟨ty, ?_, ?_⟩
    · repeat' (with_reducible refine hasAt_append ?_)
      exact ⟨[], [], rfl, by simp⟩
    · cases hc : c.profile with
      | noColorProfile => rw [hc] at hp; simp [hp.1]
      | srgb => rw [hc] at hp; simp [hp.1]
      | embeddedICC d => rw [hc] at hp; simp [hp.1]
      | unknown t =>
        rw [hc] at hp
        have h := hp.1
        have n0 : ty ≠ 0 := by rintro rfl; cases t; cases h
        have n1 : ty ≠ 1 := by rintro rfl; cases t; cases h
        have n2 : ty ≠ 2 := by rintro rfl; cases t; cases h
        refine ⟨by simp [n0], by simp [n1], by simp [n2], ?_⟩
        intro v hv hw
        cases hv
        rw [colorProfileTypeOf, if_neg hw] at h
        simp only [decodeBy, colorProfileTypes, List.lookup] at h
        repeat' split at h
        all_goals first | (cases h; done) | (injection h with h; exact h.symm)
  · intro e hok
    obtain ⟨l, ⟨ty, re, _, _, ht, rfl⟩, rfl⟩ := (parses_externalFile b r e).1 hok
    refine ⟨ty, ?_, fun hv => ?_⟩
    · repeat' (with_reducible first | refine hasAt_end ?_ | refine hasAt_append ?_)
      rfl
    · rw [ht, externalFileTypeOf, if_neg hv]
  · intro m hok
    unfold parseBlendMode at hok
    obtain ⟨w, r', h1, h2⟩ := P.bind_ok.1 hok
    cases h2
    exact ⟨w, word_ok.1 h1, fun hv => by rw [BlendMode.ofWord_eq, blendModeOf, if_neg hv]⟩
  · intro d hok
    unfold parseColorDepth at hok
    obtain ⟨w, r', h1, h2⟩ := P.bind_ok.1 hok
    cases h2
    exact ⟨w, word_ok.1 h1, ColorDepth.ofWord_eq w⟩

/-- A layer with the unknown blend mode 20, a cel of the unknown type 9, a colour profile of the unknown type 7. -/
example :
    (match parseLayerChunk ([1, 0, 2, 0, 0, 0, 0, 0, 0, 0, 20, 0, 255, 0, 0, 0, 1, 0, 65] ++ [1, 0, 0, 0]) with
      | .ok (_, c) => decide (c.blendMode = .unknown 20 ∧ c.layerType = .tilemap)
      | _ => false) = true ∧
    (match parseCelChunk ([0, 0, 0, 0, 0, 0, 255, 9, 0] ++ List.replicate 7 0 ++ [1, 2]) with
      | .ok (_, c) => decide (c.content = .unknown 9 [1, 2])
      | _ => false) = true ∧
    (match parseColorProfile ([7, 0] ++ List.replicate 14 0) with
      | .ok (_, c) => decide (c.profile = .unknown 7)
      | _ => false) = true := by
  decide +kernel

theorem low16 (w : UInt16) (n : Nat) (m : UInt16) (hm : m.toNat = 2 ^ n - 1) (i : Nat) :
    bit16 (w &&& m) i ↔ i < n ∧ bit16 w i := by
  unfold bit16
  rw [UInt16.toNat_and, Nat.testBit_and, hm, Nat.testBit_two_pow_sub_one]
  simp [and_comm]

theorem low32 (w : UInt32) (n : Nat) (m : UInt32) (hm : m.toNat = 2 ^ n - 1) (i : Nat) :
    bit32 (w &&& m) i ↔ i < n ∧ bit32 w i := by
  unfold bit32
  rw [UInt32.toNat_and, Nat.testBit_and, hm, Nat.testBit_two_pow_sub_one]
  simp [and_comm]

/-- **C20, undocumented bits.** Of every flag word exactly the documented bits are kept: seven of layers, two of slices, three
of user data, six of tilesets, one of palette entries, colour profiles and cel extras. -/
theorem C20_kept (i : Nat) :
    (∀ w, bit16 (LayerFlags.fromBitsTruncate w).bits i ↔ i < 7 ∧ bit16 w i) ∧
    (∀ w, bit32 (SliceFlags.fromBitsTruncate w).bits i ↔ i < 2 ∧ bit32 w i) ∧
    (∀ w, bit32 (UserDataFlags.fromBitsTruncate w).bits i ↔ i < 3 ∧ bit32 w i) ∧
    (∀ w, bit32 (TilesetFlags.fromBitsTruncate w).bits i ↔ i < 6 ∧ bit32 w i) ∧
    (∀ w, bit16 (PaletteEntryFlags.fromBitsTruncate w).bits i ↔ i < 1 ∧ bit16 w i) ∧
    (∀ w, bit16 (ColorProfileFlags.fromBitsTruncate w).bits i ↔ i < 1 ∧ bit16 w i) ∧
    (∀ w, bit32 (CelExtraFlags.fromBitsTruncate w).bits i ↔ i < 1 ∧ bit32 w i) :=
  ⟨fun w => low16 w 7 _ rfl i, fun w => low32 w 2 _ rfl i, fun w => low32 w 3 _ rfl i,
    fun w => low32 w 6 _ rfl i, fun w => low16 w 1 _ rfl i, fun w => low16 w 1 _ rfl i,
    fun w => low32 w 1 _ rfl i⟩

/-- **C20, parsed records.** The flags of a parsed layer, slice, tileset or cel extra are those of the word stored at its
place in the chunk, without the undocumented bits; and a palette entry has a name, a colour profile a gamma value, a
tileset a reference to a file or tiles exactly if the bit for that is set. -/
theorem C20_parsed (b r : Bytes) :
    (∀ c, parseLayerChunk b = .ok (r, c) → ∃ w, HasAt b 0 (le16 w) ∧ ∀ i, bit16 c.flags.bits i ↔ i < 7 ∧ bit16 w i) ∧
    (∀ c, parseSliceChunk b = .ok (r, c) → ∃ w, HasAt b 4 (le32 w) ∧ ∀ i, bit32 c.flags.bits i ↔ i < 2 ∧ bit32 w i) ∧
    (∀ c, parseTilesetChunk b = .ok (r, c) → ∃ w, HasAt b 4 (le32 w) ∧
      (∀ i, bit32 c.flags.bits i ↔ i < 6 ∧ bit32 w i) ∧ (c.externalFile.isSome ↔ bit32 w 0) ∧
      (c.tiles.isSome ↔ bit32 w 1)) ∧
    (∀ c, parseCelExtraChunk b = .ok (r, c) → ∃ w, HasAt b 0 (le32 w) ∧ ∀ i, bit32 c.flags.bits i ↔ i < 1 ∧ bit32 w i) ∧
    (∀ c, parseColorProfile b = .ok (r, c) → ∃ w, HasAt b 2 (le16 w) ∧ (c.fixedGamma.isSome ↔ bit16 w 0)) ∧
    (∀ e, parsePaletteEntry b = .ok (r, e) → ∃ w, HasAt b 0 (le16 w) ∧ (e.name.isSome ↔ bit16 w 0)) := by
  have opt : ∀ {α : Type} {p : Prop} {R : α → Bytes → Prop} {o : Option α} {l : Bytes}, Opt p R o l → (o.isSome ↔ p) := by
    intro α p R o l h
    cases o <;> simp_all [Opt]
  have first : ∀ (m s : Bytes), HasAt (m ++ s) 0 m := fun m s => ⟨[], s, rfl, rfl⟩
  refine ⟨?_, ?_, ?_, ?_, ?_, ?_⟩
  · intro c hok
    obtain ⟨l, ⟨fl, ty, dw, dh, bl, fu, ti, _, _, hf, _, _, _, _, rfl⟩, rfl⟩ := ((C11_layer b).1 r c).1 hok
    refine ⟨fl, ?_, fun i => ?_⟩
    · simp only [List.append_assoc]
      exact first _ _
    · rw [hf]
      exact low16 fl 7 _ rfl i
  · intro c hok
    obtain ⟨l, ⟨fl, re, ks, _, _, hf, _, _, rfl⟩, rfl⟩ := ((C15_slice b).1 r c).1 hok
    refine ⟨fl, ?_, fun i => ?_⟩
    · repeat' (with_reducible first | refine hasAt_end ?_ | refine hasAt_append ?_)
      rfl
    · rw [hf]
      exact low32 fl 2 _ rfl i
  · intro c hok
    obtain ⟨l, ⟨fl, re, ext, tiles, _, _, hf, he, ht, rfl⟩, rfl⟩ := ((C18_auxiliary b).2.2.2.1 r c).1 hok
    refine ⟨fl, ?_, fun i => ?_, opt he, opt ht⟩
    · repeat' (with_reducible first | refine hasAt_end ?_ | refine hasAt_append ?_)
      rfl
    · rw [hf]
      exact low32 fl 6 _ rfl i
  · intro c hok
    obtain ⟨-, fl, hf, rfl⟩ := ((C18_auxiliary b).2.2.2.2.1 r c).1 hok
    refine ⟨fl, ?_, fun i => ?_⟩
    · simp only [List.append_assoc]
      exact first _ _
    · rw [hf]
      exact low32 fl 1 _ rfl i
  · intro c hok
    obtain ⟨l, ⟨ty, fl, ga, re, icc, _, hg, hp, rfl⟩, rfl⟩ := ((C18_auxiliary b).1 r c).1 hok
    refine ⟨fl, ?_, ?_⟩
    · repeat' (with_reducible first | refine hasAt_end ?_ | refine hasAt_append ?_)
      rfl
    · rw [hg, ← (colorProfile_fixedGamma_and fl).symm.trans (colorProfile_fixedGamma fl)]
      by_cases h : fl &&& 1 = 1 <;> simp [h]
  · intro e hok
    obtain ⟨l, ⟨fl, na, hn, rfl⟩, rfl⟩ := (parses_paletteEntry b r e).1 hok
    refine ⟨fl, ?_, opt hn⟩
    simp only [List.append_assoc]
    exact first _ _

/-- A slice with the flags 0xFFFFFFFD keeps bit 0; a tileset with flags 2 has tiles and no reference. -/
example :
    (match parseSliceChunk ([0, 0, 0, 0] ++ [0xFD, 0xFF, 0xFF, 0xFF] ++ [0, 0, 0, 0] ++ [1, 0, 65]) with
      | .ok (_, c) => decide (c.flags.bits = 1)
      | _ => false) = true ∧
    (match parseTilesetChunk ([0, 0, 0, 0] ++ [2, 0, 0, 0x80] ++ List.replicate 10 0 ++ List.replicate 14 0 ++ [1, 0, 65] ++
        [1, 0, 0, 0, 9]) with
      | .ok (_, c) => decide (c.flags.bits = 2 ∧ c.tiles = some [9] ∧ c.externalFile = none)
      | _ => false) = true := by
  decide +kernel

/-- **C42, colour depths.** `bpp` of a colour depth is the stored number of bits per pixel, and `pixel_size` is the number
of bytes every pixel of an image takes, or `None` if the colour depth is unknown. -/
theorem C42_pixel_size (w : UInt16) :
    (ColorDepth.ofWord w).bpp = w ∧
    (∀ n, (ColorDepth.ofWord w).pixelSize = some n ↔
      (∀ v, ColorDepth.ofWord w ≠ .unknown v) ∧ bytesPerPixel (ColorDepth.ofWord w) = n ∧ n * 8 = w.toNat) := by
  unfold ColorDepth.ofWord
  by_cases h1 : w = 32
  · subst h1
    refine ⟨rfl, fun n => ?_⟩
    simp [ColorDepth.pixelSize, bytesPerPixel]
    omega
  · by_cases h2 : w = 16
    · subst h2
      refine ⟨rfl, fun n => ?_⟩
      simp [ColorDepth.pixelSize, bytesPerPixel]
      omega
    · by_cases h3 : w = 8
      · subst h3
        refine ⟨rfl, fun n => ?_⟩
        simp [ColorDepth.pixelSize, bytesPerPixel]
        omega
      · simp [h1, h2, h3, ColorDepth.pixelSize, ColorDepth.bpp]

example : (ColorDepth.ofWord 16).pixelSize = some 2 ∧ (ColorDepth.ofWord 24).pixelSize = none ∧
    (ColorDepth.ofWord 24).bpp = 24 := by decide

/-- **C26, raw frames.** `cels` of a raw frame gives its cel chunks, all of them and in their order. -/
theorem C26_raw_cels (f : RawFrame) :
    f.cels.map Chunk.cel = f.chunks.filter (fun | .cel _ => true | _ => false) := by
  unfold RawFrame.cels
  induction f.chunks with
  | nil => rfl
  | cons c cs ih =>
    cases c <;> simp_all

example : (match parseRawFile ⟨true, 10⟩ (Sample.header 1 1 32 ++ Sample.frame 1 [Sample.layer 1 0 0 255 [65],
      Sample.cel 3 0 0 1 1 [1, 2, 3, 4], Sample.text 66, Sample.cel 1 0 0 1 1 [5, 6, 7, 8]]) with
    | .ok raw => raw.frames.map (fun f => f.cels.map (·.layerIndex))
    | _ => []) = [[3, 1]] := by decide +kernel

end Ase
