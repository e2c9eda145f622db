import Verif.Model.Loader
import Verif.Props.Attach
import Verif.Props.Errors
import Verif.Spec.Sample

/-!
# C136: what may follow a file
-/

namespace Ase

open Spec

theorem parseRawFile_followed {plat : Plat} {h : Header} {header : Bytes} (hh : IsHeader h header) (rest : Bytes)
    (e : NomErr) (he : parseFrames plat rest = .err e) : parseRawFile plat (header ++ rest) = .err e := by
  unfold parseRawFile
  rw [outcome_bind_def, (parses_header _ rest h).2 ⟨header, hh, rfl⟩]
  show Outcome.bind (parseFrames plat rest) _ = _
  rw [he]
  rfl

theorem parseRawframe_refuses (plat : Plat) (x : Bytes) (hm : (x.drop 4).take 2 ≠ [0xFA, 0xF1])
    (h : x.length < 4 ∨ ∃ (n : UInt32) (rest : Bytes), x = le32 n ++ rest ∧ 4 ≤ n.toNat) :
    ∃ e, parseRawframe plat x = .err (.error e) := by
  rcases h with h | ⟨n, rest, rfl, hn⟩
  · exact ⟨_, (C61_frame_errors plat _ _).2 (.inl ⟨h, rfl⟩)⟩
  · by_cases hl : (le32 n ++ rest).length < n.toNat
    · exact ⟨_, (C61_frame_errors plat _ _).2 (.inr (.inr (.inl ⟨n, rest, rfl, hn, hl, rfl⟩)))⟩
    · have h4 : (le32 n).length = 4 := leBytes_length _ _
      rw [List.length_append, h4] at hl
      have hlen : (rest.take (n.toNat - 4)).length = n.toNat - 4 := by rw [List.length_take]; omega
      have hsum : 4 + (rest.take (n.toNat - 4)).length = n.toNat := by rw [hlen]; omega
      refine ⟨_, (C61_frame_errors plat _ _).2 (.inr (.inr (.inr ⟨rest.take (n.toNat - 4), rest.drop (n.toNat - 4), ?_, ?_,
        .inl ⟨?_, rfl⟩⟩)))⟩
      · rw [hsum]; exact n.toNat_lt
      · rw [hsum, List.append_assoc, List.take_append_drop]; rfl
      · intro he
        refine hm ?_
        rw [List.drop_append_of_le_length (by omega), List.drop_eq_nil_of_le (by omega), List.nil_append]
        have h2 := congrArg List.length he
        rw [List.take_take] at he
        rw [List.length_take, hlen] at h2
        simp only [List.length_cons, List.length_nil] at h2
        rwa [Nat.min_eq_left (by omega)] at he

theorem seq_follow {α : Type} {p : P α} {G : α → Bytes → Prop} (hp : Parses p G) (hne : ∀ x l, G x l → l ≠ [])
    {xs ys : List α} {l t m : Bytes} (hx : Seq G xs l) (hy : Seq G ys m) (e : m = l ++ t) :
    ∃ zs, ys = xs ++ zs ∧ Seq G zs t := by
  induction hx generalizing ys m with
  | nil => exact ⟨ys, rfl, by rw [e] at hy; exact hy⟩
  | @cons x xs k ks hx _ ih =>
    cases hy with
    | nil => exact absurd (List.append_eq_nil_iff.1 (List.append_eq_nil_iff.1 e.symm).1).1 (hne _ _ hx)
    | @cons y ys k' ks' hy hys =>
      have h1 := (hp (k' ++ ks') ks' y).2 ⟨k', hy, rfl⟩
      have h2 := (hp (k' ++ ks') (ks ++ t) x).2 ⟨k, hx, by rw [e, List.append_assoc]⟩
      rw [h1] at h2
      simp only [Outcome.ok.injEq, Prod.mk.injEq] at h2
      obtain ⟨h2, rfl⟩ := h2
      obtain ⟨zs, rfl, hz⟩ := ih hys h2
      exact ⟨zs, rfl, hz⟩

/-- **C136 (frames).** What follows a file is accepted iff it is zero or more frame records, and then these are added to the
frames; the header stays as it is. -/
theorem C136_frames (plat : Plat) (b : Bytes) (f : RawFile) (h : parseRawFile plat b = .ok f) (more : Bytes) (g : RawFile) :
    parseRawFile plat (b ++ more) = .ok g ↔
      ∃ fs, Seq (IsFrame (readsUserData plat)) fs more ∧ g = { f with frames := f.frames ++ fs } := by
  obtain ⟨hb, fb, hh, hne, hs, rfl⟩ := parseRawFile_ok.1 h
  constructor
  · intro hg
    obtain ⟨hb', fb', hh', hne', hs', he⟩ := parseRawFile_ok.1 hg
    have h1 := (parses_header (hb ++ fb ++ more) (fb ++ more) f.header).2 ⟨hb, hh, List.append_assoc ..⟩
    have h2 := (parses_header (hb ++ fb ++ more) fb' g.header).2 ⟨hb', hh', he⟩
    rw [h1] at h2
    simp only [Outcome.ok.injEq, Prod.mk.injEq] at h2
    obtain ⟨zs, hz, hm⟩ := seq_follow (parses_rawframe plat) (fun _ _ => isFrame_ne) hs hs' h2.1.symm
    refine ⟨zs, hm, ?_⟩
    obtain ⟨gh, gf⟩ := g
    rw [h2.2, ← hz]
  · rintro ⟨fs, hf, rfl⟩
    refine parseRawFile_ok.2 ⟨hb, fb ++ more, hh, ?_, ?_, List.append_assoc ..⟩
    · intro h0; exact hne (List.append_eq_nil_iff.1 h0).1
    · exact seq_append hs hf

/-- A file and a further frame; a file and the beginning of a frame. -/
example :
    let b := Sample.header 1 1 32 ++ Sample.frame 100 []
    (match parseRawFile ⟨true, 10⟩ b with | .ok f => f.frames.length == 1 | _ => false) = true ∧
    (match parseRawFile ⟨true, 10⟩ (b ++ Sample.frame 7 []) with | .ok f => f.frames.map (·.duration) == [100, 7] | _ => false)
      = true ∧
    (match parseRawFile ⟨true, 10⟩ (b ++ (Sample.frame 7 []).take 10) with | .ok _ => false | _ => true) = true := by
  decide +kernel

/-- **C136 (other bytes).** Bytes after a file that do not begin like a frame record, with the magic number of frames after
four bytes, make `parse_file` and `load` fail, however they go on.  If the first four, taken for a size, are less than 4
the error says so; otherwise it is the error "end of input expected" at the place where the file ends. -/
theorem C136_other (plat : Plat) (b : Bytes) (f : RawFile) (h : parseRawFile plat b = .ok f) (more : Bytes)
    (hne : more ≠ []) (hm : (more.drop 4).take 2 ≠ [0xFA, 0xF1]) :
    (∀ (n : UInt32) (rest : Bytes), more = le32 n ++ rest → n.toNat < 4 →
      parseFile plat (b ++ more) = .err (.failure (.invalidFrameSize n)) ∧
      AsepriteFile.load plat (b ++ more) = .err (.parse (.failure (.invalidFrameSize n)))) ∧
    ((more.length < 4 ∨ ∃ (n : UInt32) (rest : Bytes), more = le32 n ++ rest ∧ 4 ≤ n.toNat) →
      parseFile plat (b ++ more) = .err (.error (.nom more .eof)) ∧
      AsepriteFile.load plat (b ++ more) = .err (.parse (.error (.nom more .eof)))) := by
  obtain ⟨hb, fb, hh, hne', hs, rfl⟩ := parseRawFile_ok.1 h
  have key : ∀ e, parseFrames plat (fb ++ more) = .err e → parseFile plat (hb ++ fb ++ more) = .err e ∧
      AsepriteFile.load plat (hb ++ fb ++ more) = .err (.parse e) := by
    intro e he
    have h1 : parseFile plat (hb ++ fb ++ more) = .err e := by
      unfold parseFile
      rw [outcome_bind_def, List.append_assoc, parseRawFile_followed hh _ e he]
      rfl
    refine ⟨h1, ?_⟩
    unfold AsepriteFile.load
    rw [outcome_bind_def, h1]
    rfl
  refine ⟨fun n rest hx hn => key _ ?_, fun hx => key _ ?_⟩
  · refine parseFrames_err.2 ⟨f.frames, fb, more, hs, rfl, .inr (.inr ⟨hne', _, ?_, rfl⟩)⟩
    exact (C61_frame_errors plat _ _).2 (.inr (.inl ⟨n, rest, hx, hn, rfl⟩))
  · exact parseFrames_err.2 ⟨f.frames, fb, more, hs, rfl, .inr (.inl ⟨hne', hne, parseRawframe_refuses plat more hm hx, rfl⟩)⟩

/-- A file that was padded with zeros, by three bytes and by eight. -/
example :
    let b := Sample.header 1 1 32 ++ Sample.frame 100 []
    (match parseFile ⟨true, 10⟩ (b ++ [0, 0, 0]) with | .err (.error (.nom [0, 0, 0] .eof)) => true | _ => false) = true ∧
    (match parseFile ⟨true, 10⟩ (b ++ List.replicate 8 0) with | .err (.failure (.invalidFrameSize 0)) => true | _ => false)
      = true := by
  decide +kernel

/-- **C136 (two files).** Two files one after the other, the second one complete or not and whether or not it can be read,
are not a file: `parse_file` and `load` fail.  Where the second file states a size of at least 4 bytes, the error is "end
of input expected", at the place where the second file begins. -/
theorem C136_two (plat : Plat) (b : Bytes) (f : RawFile) (h : parseRawFile plat b = .ok f) (h' : Header) (header rest : Bytes)
    (hh : IsHeader h' header) :
    ∃ e, parseFile plat (b ++ (header ++ rest)) = .err e ∧ AsepriteFile.load plat (b ++ (header ++ rest)) = .err (.parse e) ∧
      (4 ≤ h'.fileSize.toNat → e = .error (.nom (header ++ rest) .eof)) := by
  have h4 : (le32 h'.fileSize).length = 4 := leBytes_length _ _
  obtain ⟨tail, ht⟩ : le32 h'.fileSize ++ [0xE0, 0xA5] <+: header ++ rest := by
    obtain ⟨depth, ignore, future, _, _, _, hx⟩ := hh
    exact ⟨le16 h'.frames ++ (le16 h'.width ++ (le16 h'.height ++ (le16 depth ++ (le32 h'.flags ++ (le16 h'.speed ++
      ([0, 0, 0, 0] ++ ([0, 0, 0, 0] ++ ([h'.transparentIndex] ++ (ignore ++ (le16 h'.colorCount ++ ([h'.pixelWidth] ++
      ([h'.pixelHeight] ++ (les16 h'.gridX ++ (les16 h'.gridY ++ (le16 h'.gridWidth ++ (le16 h'.gridHeight ++
      (future ++ rest))))))))))))))))), by rw [hx]; simp only [List.append_assoc]⟩
  rw [List.append_assoc] at ht
  rw [← ht]
  have key := C136_other plat b f h (le32 h'.fileSize ++ ([0xE0, 0xA5] ++ tail))
    (by intro h0; have := congrArg List.length h0; simp at this)
    (by
      rw [List.drop_append_of_le_length (by omega), List.drop_eq_nil_of_le (by omega)]
      simp)
  by_cases hn : h'.fileSize.toNat < 4
  · obtain ⟨h1, h2⟩ := key.1 _ _ rfl hn
    exact ⟨_, h1, h2, fun h0 => absurd hn (Nat.not_lt.2 h0)⟩
  · obtain ⟨h1, h2⟩ := key.2 (.inr ⟨_, _, rfl, Nat.not_lt.1 hn⟩)
    exact ⟨_, h1, h2, fun _ => rfl⟩

/-- A file followed by itself. -/
example :
    let b := Sample.header 1 1 32 ++ Sample.frame 100 []
    (match parseRawFile ⟨true, 10⟩ b with | .ok _ => true | _ => false) = true ∧
    (match parseFile ⟨true, 10⟩ (b ++ b) with | .err _ => true | _ => false) = true := by
  decide +kernel

end Ase
