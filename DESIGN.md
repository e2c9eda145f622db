# A Lean 4 model of aseprite-loader

Source: `/repo` (bikeshedder/aseprite-loader 0.4.2, pinned).  Model, specifications and proofs: `/verif/lean`.
Properties: `/verif/properties.jsonl`.  Which theorem proves which property: `/verif/MANIFEST.json`.
Wrong programs the theorems were tested against: `/verif/seeded/LOG.jsonl`.

## 1. Layout

| Directory | Contents |
|---|---|
| `Verif/Model/` | executable model of the Rust code, function by function, each definition citing file and lines |
| `Verif/Spec/` | small specifications written from the English properties and the Aseprite format document; they mention the data types of the model, but never a parser, a loop or a buffer |
| `Verif/Lemmas/` | helper lemmas |
| `Verif/Props/` | the property theorems, named `Ase.Cnn_…`, each with an example that its hypotheses can be met |
| `Verif/Tests/` | the sample files of the crate (`/repo/tests`) as byte lists, and the unit tests of the crate restated as `example`s about the model; tests of the model, not proofs of properties |

A theorem whose name ends in `_partial` proves the part of its property that is true of the code.  Where a property is
false of the code, a theorem without that suffix proves a concrete counterexample (an input file and what happens).

## 2. How the code is modelled

* `&[u8]` is `List UInt8`; integers are Lean's fixed width types (`UInt8/16/32/64`, `Int8/16/32/64`, `BitVec 128`).
  `f32`/`f64` property values are kept as their bit patterns.
* A Rust computation is a value of `Outcome ε α = ok a | err e | panic k`.  `?` is monadic bind, every panic
  (index out of bounds, arithmetic overflow in debug builds, division by zero, `unwrap`, `assert`, `debug_assert`,
  `panic!`, `copy_from_slice` with different lengths, stack overflow) is an explicit `panic`.
* A nom parser is a function `Bytes → Outcome NomErr (Bytes × α)`; the nom 8 combinators used
  (`take`, `tag`, `count`, `many1`, `all_consuming`, `cond`, `map`, `map_res`, `flat_map`, `le_*`) are modelled from
  their documentation.  `nom::Err::Incomplete` does not occur (only `complete` parsers are used).
* `Plat` carries the build profile (`debug`: overflow checks and `debug_assert!` on) and the number of nested calls of
  the recursive property parser the stack can hold; `usize` is 64 bits wide.  All theorems hold for every `Plat` unless
  they say otherwise.  `Model/Width` has the functions that compute with `usize` once more, for any width; C69 relates
  the two.
* For C70 the functions are written a third time, counting steps: primitive reads, turns of loops, bytes of texts
  validated or copied, cel slots, bytes of buffers made or copied.  Arithmetic, moves, hash map operations, building an
  error message and freeing memory are not counted; decompressing is assumed to take one step per byte of its input and
  of its target.
* A function writing to a buffer is a function `Bytes → Outcome … × Bytes` (`Buf`): result and buffer afterwards, also
  after an error or a panic.
* `flate2` is an external function `Inflater`: from compressed bytes and output capacity to a status and output bytes,
  of which no more than fit are written to the front of the target.  Everything about decoding and rendering holds for
  *every* such function (C42 and C44 assume `Fits`: it does not report more output than the capacity).
* `HashMap` is an association list; `DefaultHasher` an arbitrary function of the hashed values;
  `Model/SipHash` is what it is in practice (SipHash-1-3, keys zero, 64-bit little-endian), used in one counterexample only.
* `f64` arithmetic (soft light and the HSL modes) is modelled as IEEE-754 binary64 on exact dyadic numbers with explicit
  round-to-nearest-even, infinities, NaN and signed zero (`Model/F64.lean`).  C115 proves that it obeys the rules of
  the standard as stated in `Spec/Ieee.lean`, and that nothing else does; trusted is only that Rust's `f64` follows them.
  `Lemmas/F64Real.lean` relates it to real numbers; `Lemmas/SoftLight.lean` is the error analysis of soft light.
* `i32` arithmetic in `blend.rs` is checked in debug builds and wraps in release builds (`i32Op`).
* `str::from_utf8` is modelled as its validation loop (`Model/Utf8.lean`) and proved to accept exactly the encodings of
  texts (C02).
* `strum::FromRepr` and `bitflags` are modelled from their documentation (`Model/Enums.lean`).

### What is modelled

| Source | Model |
|---|---|
| `binary/scalars.rs`, `errors.rs` | `Model/Scalars`, `Model/Core`, `Model/Utf8` (all functions) |
| `binary/header.rs`, `color_depth.rs`, `blend_mode.rs`, `chunk_type.rs` | `Model/Header`, `Model/Enums` (all functions) |
| `binary/image.rs`, `binary/chunks/*.rs` | `Model/Chunks`, `Model/UserData` (all fourteen chunk types, all functions) |
| `binary/chunk.rs`, `raw_frame.rs`, `raw_file.rs`, `frame.rs`, `palette.rs`, `file.rs` | `Model/File` (all functions) |
| `loader/blend.rs` | `Model/Blend`, `Model/F64` (all functions); `Model/Saturation` for the branch that is not compiled in; `Model/BlendArith` for any arithmetic |
| `loader/mod.rs` | `Model/Loader` (all functions); `Model/Message` for the texts of errors; `Model/Select` for predicates with effects; `Model/Tasks` for calls that run at the same time; `Model/Alloc` for the vectors of pixels when memory is limited; `Model/Width` for other widths of `usize` |

### What is not modelled

* The `Debug` and `Display` texts of values other than `LoadSpriteError` and `LoadImageError` (those are in
  `Model/Message`).
* Memory: except in `Model/Alloc` allocation never fails; `Vec` capacities are invisible.  What the crate allocates is
  bounded by C28 (parser) and described by C60 and C107 (rendering).  `Model/Alloc` counts the vectors of pixels only, not
  the allocations of the parser and the fixed size state of the decompressor.
* The code of the dependencies (nom, strum, bitflags, flate2, std); see the trusted base.  `Model/Inflate` is a zlib
  decoder written from RFC 1950 and RFC 1951, one instance of the parameter `Inflater`; it is used to run the model on
  real files and to specialise theorems, and is not a model of the code of flate2.  It is proved to accept exactly the
  streams described, without reference to a decoder, in `Spec/Deflate` (`Zlib.inflate_iff`).
* Other `Error` implementations, `#[cfg(test)]` code, 16-bit targets.

## 3. The properties and how they are proved

Status *proved* unless marked *(partial)*.

### Parser

| Id | Specification | Proof |
|---|---|---|
| C01–C03 | `Spec/Layout`, `Spec/Chunks.IsHeader`: bytes of each value | iff theorems: parser succeeds with `(r, x)` exactly if the input is `layout x ++ r`; UTF-8 against Lean's `String.utf8EncodeChar` |
| C04 *(partial)* | `Spec/Panics`: where a user data chunk lies, what nests too deep | every parser function has a lemma saying exactly on which inputs it panics; false of the code: three counterexamples (`layer_index == layers.len()`, properties size below 8 in debug builds, deep nesting), and an iff theorem giving the exact inputs of each, so that nothing else panics |
| C05–C08 | `Spec/File`: `IsChunk`, `IsFrame`, concatenation | iff theorems by induction over the counts / the input length |
| C09, C10 | – | relational theorems from C03, C08 and the exact description of the panics (`parseRawFile_panic_iff`) |
| C11, C13, C15, C18 | `Spec/Chunks`: one relation per chunk type | iff theorems |
| C12 *(partial)* | same | false for compressed tilemaps: the X and Y flip masks are exchanged; exact for everything else |
| C14 *(partial)* | same | false if the palette size differs from the number of stored entries (the code reads `palette_size` entries instead of `last - first + 1`); what is read then is given exactly |
| C16 *(partial)*, C17 | `Spec/UserData`: recursive layout of property values | iff theorems by induction on the nesting depth; false for maps nested in values: the code reads a key the format does not have |
| C19 *(partial)* | `Spec/Codes`: tables; `Props/Enums` for parsed records | false at the code after the last documented one of five enumerations (`FromRepr` yields `Unknown(0)`) |
| C20 *(partial)* | bits by `testBit` | false for three layer flags (`0x16`, `0x32`, `0x64` for 16, 32, 64); the bits they test are given exactly |
| C21, C22 | `Spec/Assemble`: list of writes to the palette, last one counts | induction over the chunk lists |
| C23 *(partial)*, C24–C26, C06 | `Spec/Assemble`: `owned`, `layersOf`, … | induction over chunk lists; C23 is false if the index equals the number of layers (panic); the outcome is given exactly in all cases |
| C27, C28 | – | induction over all parsers: image data, and every other slice and text (`Verif/Spec/Pieces.lean`), is a piece of the input; 16 bytes per frame, 6 per chunk, 1 per element |
| C54 *(partial)* | `Spec/Encode`: an encoder from the format document | round trip from the iff theorems; limits from C12, C14, C16, C19 |
| C55 *(partial)* | – | false: for every stack size an input exceeding it; at least two bytes per level; every input has a definite stack it needs, beyond which the stack does not matter (from C57) |
| C57 | – | simulation between two build profiles, through every function |
| C60 *(partial)* | `Spec.slotCount`, `Spec.renderBuffers` | every frame takes 16 bytes and every layer 24, hence at most N²/1536 slots; a family of files with n² slots in 128 + 40 n bytes; a 194 byte file with a 16 GiB image |
| C61, C62 | `Spec.Reportable` (C62) | every parser has a lemma saying which errors it can give on which inputs; iff theorems for headers, chunks, frames and files |

### Loader

| Id | Specification | Proof |
|---|---|---|
| C29–C33 | `Spec/Loader` | invariants of the two passes of `load` |
| `C33_chunks`, `C65_loads`, `C52_same_hash`, `C50_keeps_opaque_partial` (`Props/Consequences`) | `Spec/Document`, `Spec/Render` | consequences of the exact theorems: which files load said with their chunks; a file still loads when frames that cannot fail are appended; equal pictures have equal hashes; an opaque backdrop stays opaque under the HSL modes |
| C34 *(partial)* | – | false if a tilemap or unknown layer precedes (cels keep the unfiltered index): counterexample; true otherwise; the layer each cel is drawn with is given exactly |
| C35, C39, C40, C52, C53 | `Spec/Render` | equational reasoning on the rendering loop |
| C36–C38 | `Spec/Render.compose`: the colour of one pixel as a fold over cels | refinement: the loops over a byte buffer do the fold at every pixel and leave everything else |
| C41 *(partial)* | – | false: `unwrap` and unknown blend modes panic; exact condition for success; `C41_cause_partial` names the cause of each panic (raw data of a wrong size, undecodable image, unknown blend mode, a pixel on an HSL layer in a debug build) and shows there is no other |
| C42, C43 *(partial)*, C44 *(partial)* | `Spec/Image.storedPixel` | loop invariants; false for raw RGBA data of a wrong size (panic) and for short zlib streams (old bytes stay); every pixel is given in all cases |
| C45 *(partial)* | `Spec/Blend`: nearest integers | exhaustive-in-principle facts proved by linear arithmetic over symbolic operands; interpolation is off by one for some decreasing pairs, and it is shown for exactly which |
| C46–C49, C56 | `Spec/Blend`: formulas of the modes on `Nat` | no overflow, then equality with the formula for all operands |
| C47, C51 *(partial)* | `Spec/SoftLight`: the W3C formula on reals | error analysis of the f64 computation; blue uses the backdrop twice (false) |
| C50 *(partial)* | – | HSL modes: debug builds panic (`as u8` of values above 255 fails the debug assertion), release builds are total; `C50_exactly_partial` says exactly which colours panic: with the formulas of C76 over the reals, clipping keeps the channels in range iff the luminosity is at most 1, and the rounding error is too small to matter |
| C58 *(partial)*, C59 *(partial)* | `Spec/Reference`: a renderer written from the format document, working on the chunks | composition of all of the above; six features the crate ignores have counterexamples; for every file the crate renders the reference picture of the file without them (`Spec/AsRead`, `C58_as_read`, `C59_as_read_partial`) |
| C63 | `Spec/Loader.ownImage`, `imageAt` | invariant of the first pass of `load` |
| C64, C65 | `Spec.celFacts`, `Spec.SameSetting`, `Spec.isFrameLocal` | two-run (non-interference) theorem about the rendering loop; frames and images of the longer file extend those of the shorter one |
| C66 | `Spec.coverage` | alpha of every mode from C46, C50, C51, C56; fold over the cels with C37 |
| C67 *(partial)* | – | from C13; false: tag ranges are not compared with the number of frames |
| C68 | `Spec.blankFile`, `Spec.SameImage`, `Spec.InStoredBlocks` | forgetting the image data commutes with every pass of the parser and the loader; the buffers after decoding depend on the decoded bytes only; for stored blocks also for the concrete decoder `Model/Inflate` |
| C69 *(partial)* | `Model/Width` (the same code on a `usize` of any width) | no computation overflows on 64 bits (`C69_64_bits`), none on 32 bits for images below 2^29 pixels; false beyond: overflow panics or wrapped sizes |
| C70 | `Model/Cost`, `Model/CostLoad`, `Model/CostRender` (the same code counting steps), `Spec/Work` | erasing the counts gives the model back; a potential argument (steps plus a constant per parser against bytes consumed) for reading, sums over chunks for loading, exact counts for decoding and rendering |
| C71 | `Model/Message` (`Display` of `nom::Err`, derived `Debug`s), `Spec/Message` | a number followed by something that is not a digit can be read back, so each text determines its error; C62 for what is in it; lengths by counting |
| C72 | `Spec/Look` (what is left of a file when everything that should not matter is removed) | each stage of `load` as a function of that remainder; `render_frame` on files that agree in it |
| C73 | `Spec/Look` (`Moved`, `MovedPictures`) | the stages of `load` as in C72, with positions as integers shifted by the offset; then C37, pixel by pixel, and C41 for success |
| C74 | `Spec/Look` (`Paints`) | C37 splits the composition at the cel; C46 says that an opaque normal pixel replaces what is below |
| C75 | `Model/SipHash`, `Props/Hash` | false as stated: a pigeonhole argument over sprites with three dots gives, for every 64-bit hash, two frames with equal hash and different pictures; proved: the bytes fed to the hasher determine the cels and therefore the picture |
| C76 | `Spec/Hsl` (the formulas over the reals), `Lemmas/F64Real`, `Lemmas/F64Exact`, `Lemmas/F64Rel`, `Lemmas/Hsl`, `Lemmas/HslGrey` (error analysis) | false as stated: the code feeds channels from 0 to 255 into formulas for 0 to 1, and its sort leaves a channel out when there are ties; proved: what it computes instead, to within 1/20 before truncation |
| C77 | `Spec/Strokes` (what is painted on one pixel; what a cel looks like) | C37 rewritten as a fold over the strokes; two renderings with equal folds agree |
| C78 | `Spec/Accuracy` (W3C compositing over the rationals), `Lemmas/Accuracy` | each integer formula is within 1 of the exact one, normal blending adds at most 3/2, the exact step is 1-Lipschitz (a contraction for normal blending); induction over the strokes; soft light over the reals |
| C79 | `Spec/Channels`, `Lemmas/Channels` (every integer mode as a function of one channel) | the relation of equal channels is kept by each pair of strokes; induction |
| C80 | `Spec/Channels`, `Lemmas/Channels` (each rounded operation is monotone) | the relation of not being brighter is kept by each pair of strokes; induction |
| C81 | `Spec/Deflate` (streams as a grammar with contents, without a decoder), `Model/Inflate` | the executable decoder accepts exactly the streams of the grammar (both directions, by induction on items, code lengths and blocks; canonical codes decode uniquely); then C42, C43 and C68 |
| C82 | `Spec/Algebra`, `Lemmas/Algebra` (on opaque pixels a stroke moves a channel towards the value of the formula) | neutral value of each formula; induction over the strokes |
| C83 | `Spec/Algebra`, `Lemmas/Algebra` | De Morgan laws of the rounded formulas; the relation of being negatives is kept by each pair of strokes; induction |
| C84 | `Spec/Algebra`, `Lemmas/Algebra` | the formulas commute; the strokes are folds of them; permutation |
| C85 | `Spec/Algebra`, `Lemmas/Algebra` | each formula is below or above the old value, and interpolation stays between; induction over the strokes |
| C86 | `Spec/Reserved` (tables of the reserved ranges; files that differ only there), `Lemmas/Reserved` | the layouts of C03, C05, C07, C11 to C18 hold of a record whichever bytes are in its reserved ranges; a record can be exchanged among sized records; induction over the exchanges |
| C87 | `Spec/ColorMode` (images that show the same colours; files equal except for colours) | every colour mode is decoded to the colours of `storedPixel` (C36 to C44); the loader uses palette and colour mode for nothing else; frames by the argument of C68 |
| C88 | `Spec/Grey` | false for the modes soft light (C51), hue and saturation: `setSat` leaves the red channel of a grey as it is (C76); for the other modes by induction over what is painted (C77), one channel at a time (C79), and C76 for the modes color and luminosity |
| C89 | `Spec/Turn` | a changed cel covers a pixel if the cel covers the pixel seen there, with the changed image pixel (for enlarging: integer division commutes with moving by a multiple); then C77 |
| C90 | `Spec/Film` | the film is an encodable, consistent, plain sprite, so C59 gives its pixels; normal blending onto a transparent pixel or of an opaque one replaces it (C46) |
| C91 | `Lemmas/Render`, `Spec/Render` | the loop over the cels and then the loop over the pixels of the failing cel are split where they panic; the pixels of a cel are visited in reading order |
| C92 | `Spec/Shown` | the cels of a loaded frame are, layer by layer, what the frame shows (C32, C23); C64 then gives the pictures and C33 whether the file loads |
| C93 | `Spec/Shown` | cels that are not drawn do nothing (C39) and the others are, in order, the drawings of the file (C92); inserting a layer shifts the range of layer numbers around a number that draws nothing |
| C94 | `Props/Failed` | closed form of `decodeImage` (C42, C43); writing the same bytes twice |
| C95 | `Props/Invisible` | every mode is `blender` of a colour with the alpha of the source; induction over the strokes with the relation "looks the same" |
| C96 | `Props/Merge` | rendering is incremental (C53), and normal blending replaces a transparent pixel or by an opaque one (C46) |
| C97 | `Spec/Damage`, `Lemmas/Damage`, `Props/Damage` | exchange of one record in the grammar of C08, pushed through assembly and image table as a list relation "one member changed"; pixels by C77 |
| C98 | `Props/Opacity` (`Spec.AtMostAsOpaque`) | pixels as strokes (C77); alpha of a list of strokes by induction, monotone in each step. That the exception is needed is `C98_hue_false` |
| C99 | `Spec/Swap`, `Props/Swap` | everything assembled from chunks other than palettes is the same; the decoder as a map over indices; strokes pairwise related (C79 kit) with the laws of C46 |
| C100 | `Spec/Again`, `Props/Again` | such strokes limit each channel to a range, and so do several of them together (induction); limiting twice is limiting once; the first solid stroke makes the pixel opaque (C48, C56) |
| C101 | `Spec/Eyes`, `Props/Eyes` | both files load by the criterion of C33 (`loads_doc`); the cels of a frame are what it shows (C92), the layers of both are equal but for name and mark, and rendering uses of these only what is drawn (`forEach_draws`, C93) |
| C102 | `Spec/Baked` | Own specification (`Spec/Baked.lean`) of fading a colour and of cels that differ only in where the opacity is kept. Blends: normal depends only on the product (the case of alpha 0 separately), and the composite of C56 takes alpha only through it; conversely a transparent backdrop shows the product. Frames by C37 and the fold over strokes. `C102_hsl_false`: the four excepted modes have to be excepted. |
| C103 | `Spec/Crops` | Own specification (`Spec/Crops.lean`) of the colour of a cel at a place of the canvas, of pieces, of parts of a cel and of trimmed cels. Pieces paint the same strokes on every pixel (C77); parts are compared by arithmetic on positions; what is trimmed off paints invisible strokes (C95), and an opaque pixel stays opaque (C66). |
| C104 | `Model/Select`, `Spec/Select` | Separate model (`Model/Select.lean`) of `iter().map(predicate).collect()` with a predicate that changes a state and may panic. Own specification (`Spec/Select.lean`): the states the predicate goes through and its answers. Induction over the layers. `C104_pure` ties it to the model of C35. |
| C105 | `Model/Tasks`, `Spec/Tasks` | Separate model (`Model/Tasks.lean`): the same functions as programs that stop after every access to the buffer, several of them over one memory, and a schedule that says whose step is next. Own specification (`Spec/Tasks.lean`): requests, disjoint buffers, and the call alone, by the ordinary model. Refinement: every program run to its end is the ordinary function; every step keeps what the rest of the program computes; a step of another job leaves one's own part of the memory; every program ends. |
| C106 | `Model/Tasks`, `Spec/Moments` | On the model of C105 (`Model/Tasks.lean`). Own specification (`Spec/Moments.lean`) of a half written pixel. What a stopped program can leave is computed through sequences and loops; programs that write each byte once and from left to right leave the front of their result and the back of what was there. Pixels by C37 and the order of C91. |
| C107 | `Model/Alloc`, `Spec/Alloc` | Separate model (`Model/Alloc.lean`): the functions that allocate, with a limit and a count of live bytes; a vector is given back at the end of its scope, also on errors and panics. Own specification (`Spec/Alloc.lean`): what an image and a cel need. Each function equals the ordinary one as long as the need fits; induction over the cels up to the first that does not; pixels by C37. |
| C108 | `Spec/Groups` | Own specification (`Spec/Groups.lean`): what is seen of a pixel in front of a background; exact painting as in C78. One stroke: the code's channel times its alpha is the exact mixture but for the remainder of one division and the rounding of two products. Many strokes: exact painting does not magnify differences. Merging: the frame is the lower, middle and upper strokes (C31 order), the merged cel paints what is seen of the merged picture. |
| C109 | `Spec/Stable` | Own specification (`Spec/Stable.lean`): strokes that differ by at most e, and how far each mode lets a difference grow. One stroke: the integer code rises with its inputs (C80) and moves by k when all its inputs move by k, so it does not widen differences; the formulas of the modes are bounded one by one, that of Soft Light through its exact rounding (C51) and the slopes of the real function. Many strokes by induction. Witnesses for the modes without a limit. |
| C110 | `Spec/Edited` | Own specification (`Spec/Edited.lean`): what a cel shows, when it can be decoded, what an edit is. Nothing is assumed of the sprite but that a palette has 256 colours, as its type says. One cel: the decoded image followed by zeros, then the same pixel loop as for loaded files; all cels by induction. Edits: the references of the cels stay those of a loaded file (C31). |
| C111 | `Spec/Redraw` | Own specification (`Spec/Redraw.lean`): which files differ in one cel only, and on which pixels what is shown lies. What a frame shows on a layer (`shown`, C92) is the same except for the cel and the links to it; C92 then gives the other frames, C77 the pixels, C33 when the file loads. |
| C112 | `Spec/Patch` | Own specification (`Spec/Patch.lean`): what it is for two byte strings to differ in one frame or chunk record. By induction on the records before it, on top of the characterisations of what is read (C05, C07, C08); C111 and C72 give the pictures. |
| C113 | `Spec/Rearrange` | Own specification (`Spec/Rearrange.lean`): which frame each frame came from, and how links are renumbered. What a frame shows on a layer (C92) is the same in both files; the condition for loading (C33) carries over cel by cel. |
| C114 | `Spec/Restack` | the images that paint on a pixel, and their order, are those of the drawings (C93) that lie on it, so each pixel is composed of the same strokes (C77) and fails or not alike (C41); going through a permuted range finds the same, if what is found stays in order |
| C115 | `Spec/Ieee`: the rules of the standard on reals | each operation rounds an exact dyadic fraction (or, for roots, a value between two halves that has the same neighbours); the nearest multiple of the unit is the nearest of all numbers; two nearest numbers with even significands are equal. `Model/BlendArith` is `blend.rs` with the arithmetic as a parameter; equal step by step, a minimum or maximum that is a zero being only compared or of bytes |
| C116 | `Spec/Deflate`: zlib streams as a relation | from the conformance of the decompressor (C81); streams are prefix free; the blocks of a stream determine where its checksum is |
| C117 | `Spec/Saturation`, `Spec/Hsl` | all the arithmetic on bytes up to the last division is exact (C115), so both sorts give the same numbers for the channels they do not forget |
| C118 | `Spec/Assemble`: the writes of the chunks | induction over entries, packets and chunks; the last write of a concatenation |
| C119 | `Spec/Alone`: the list of the parsers, ReadsPrefix, ReadsAll, NeverPanics | from the exact grammar of each parser: two parses of the same bytes agree |
| C120 | `Spec/Cut`: UnexpectedEnd, AnswersAreFinal, RefusalsAreFinal, TellsIncomplete, TellsIncompleteRest, over the list of parsers in `Spec/Alone` | compositionally: sequencing, repetition, conditionals and sized records keep the property; `many1` by induction on the input |
| C121 | `Spec/Rewrite`: ReadFaithfully; `Spec/Encode`: fileBytes | each chunk, value, frame and header record read (C01) is a record the writer's bytes satisfy, and no shorter; `load` does not look at the flip masks (`Lemmas/Flips`) |
| C122 | `Spec/Delete`: LayersDeleted, over Doc.layers, Doc.celOf | both frames draw the same sequence of images (C93): going through the kept numbers in increasing order finds what going through all finds |
| C123 | `Spec/Shown`: shown, drawsLayer; `Spec/Redraw`: LiesOn | the images drawn on the pixel are the same sequence in both frames (C114), hence the same strokes (C77) |
| C124 | `Spec/ByHand`: fetch (one load_image call), byHand (the pixel drawn from the fetched images) | a zeroed buffer holds the image's colours after load_image (C42), and the cel's size is the image's (C31) |
| C125 | `Spec/Tilemaps`: ordinaryLayers, OthersRemoved, OthersOnTop | rendering draws the k-th ordinary layer with what the frame shows at number k (C92), and both files agree on that |
| C126 | `Model/Readme`: the program | a loaded sprite has a first frame (C08), a buffer of that size is never refused (C36), the picture is C58's, success is C41's, builds agree by C57 |
| C127 | chunk parsers; `Spec/Fields` lists the fields of every chunk type and says what can be wrong with them | equivalences between errors and problems, proved compositionally: each parser follows its form whatever comes after it (`Follows`), with induction over the repetition counts and the nesting depth. Makes C61_content_errors exact. `Spec/Problems` says the same of frames and files: `C127_frame`, `C127_file`, from C61. |
| C128 | `parse_file`, `load`; `Spec/Order` says when two files have the same blocks but for their order | from the description of the assembled file (C21 to C26): each part of it depends only on the blocks of one kind. `C128_exchange` and `C128_next_frame` show that the two elementary moves keep the blocks; `C128_records` builds the files from chunk records. |
| C129 | `load` with the parser below it; `Spec/Possible` lists the invariants | forwards from C21, C22, C29 to C32 and the layout of the chunks; backwards by constructing the file (one chunk sets the whole palette; tilemap layers, which `layers()` does not show, fill up the layers that cels refer to; each image is stored where it is numbered, the other cels are links) and showing that two strictly sorted lists with the same members are equal |
| C130 | `parse_file`, `load`, `load_image`, `render_frame`; `Spec/Occurs` lists the errors | only these: from C61, C62 and the range of the UTF-8 validation; each of them: by constructing the input, with the exact conditions of C61 and C127 (damaged header, frame or chunk), C33 (a file whose only cel has no image, at any place) and C129 (sprites with any image) |
| C131 | `parse_file`, `load`, `load_image`, `render_frame`, `combined_frame_image`; `Spec/Kinds` lists the panics | only these: from C04, C43 and the causes of C41; each of them: the inputs of C04 and C55, and sprites built with C129 (one pixel, one image on the layer the selection takes) that meet the cause |
| C132 | `parse_file`, with the list of `Spec/PossibleFile` | every parsed file: from the byte layouts of the chunks (C15) and how the file is put together from them (C19, C21); every such file: an encoding that stores the palette, layers, tags and slices in the first frame, one Tags chunk per tag, each followed by its user data, is parsed back to the file |
| C133 | the user data parsers, with the trees of `Spec/Properties` | induction over the nesting depth: what the layouts of C16 hold is readable, what is readable has a layout, and all layouts of a value have the same length; errors from C127, an invariant that bounds where the end of the data is reported, and for each error data that gives it |
| C134 | render_frame and load_image, with `Spec/Once` | the exact condition for success of C41 speaks of each drawn cel by itself, so it passes to fewer cels and other buffers; C124 for load_image; the failing debug build is an evaluated example |
| C135 | render_frame in both build profiles, with `Spec/DebugBuild` and the formulas of `Spec/Hsl` | C50_exactly_partial for one colour, induction over the strokes of a pixel (C77), the exact condition for success of C41 for the frame |
| C136 | `parse_raw_file`, `parse_file` and `load` | frame records are self-delimiting, so the frames of the longer input begin with those of the file; the exact errors of C61 for what comes then |
| C137 | render_frame and load, with the drawings of `Spec/Shown` and `Spec/Stacked` | the drawn cels of the third sprite split into those of the first two (C93), the loop over the cels splits at the same place, and the buffer keeps its length |
| C138 | load and render_frame, with `Spec/OneFile` | the wanted sprite is written down (every cel gets its own image, layers are moved up), it is possible in the sense of C129 and so some file is loaded as it; its loop over the cels splits into the loops of the given frames by induction over the list |
| C139 | load and render_frame, with `Spec/OneFile` | the sprite with the cel of one layer is possible in the sense of C129, the sorted cels of the frame are the cels of the layers in order, and the loop over them splits as in C138 |
| C140 | load, render_frame and all accessors, with `Spec/Joined` | the joined sprite is possible in the sense of C129 (its images are numbered by frame and layer as those of the two are), and the cels of each frame draw the same as before |
| C141 | load, render_frame and the accessors, with `Spec/Script` and `Spec/OneFile` | the wanted sprite is written down, with an image for every cel, numbered by frame and layer; it is possible in the sense of C129, and the loop over the cels of each frame splits into the loops of the named frames |
| C142 | load, render_frame and the accessors, with `Spec/Window` and the moved pictures of `Spec/Look` | the moved sprite is possible in the sense of C129, and differs from the first one as the sprites of C73 do, whose lemmas give the pixels; tiles by division with remainder |
| C143 | load, load_image, render_frame and combined_frame_image, with `Spec/Unpacked` | the sprite with decoded images is possible in the sense of C129; rendering decodes into cleared buffers, where both images give the same bytes |
| C144 | load, load_image and render_frame, with `Spec/Turned` and `Spec/Turn` | the changed sprite is written down with its pixels in RGBA and is possible in the sense of C129; its cels are changed cels as in C89, and its images can be loaded (C134) |
| C145 | load and render_frame, with `Spec/Sheet` | the frames are windows (C142) on the sheet, which C138 puts into one file; cels of the other frames paint nothing there (C37, C77) |
| C146 | load and render_frame, with `Spec/Camera` | the shots are frames of windows (C142), all with the layers of the sprite; a sprite with an image of its own for every cel of these frames is possible in the sense of C129, and draws the same (C93) |
| C147 | load, load_image and render_frame, with `Spec/Trim` | the sprite with the parts of the cels on the canvas, written in RGBA with an image for each cel, is possible in the sense of C129; each cel paints the same on each pixel of the canvas (C77), and the new images can be loaded (C134); the sheet is that of C145 |
| C148 | load, render_frame and combined_frame_image, with `Spec/Chosen` | the sprite with the other visibility is possible in the sense of C129; each cel is drawn in the one exactly if it is in the other, and with the same layer settings |
| C149 | load, load_image, render_frame and combined_frame_image, with `Spec/Relabel` | the relabelled sprite is possible in the sense of C129; rendering looks at neither names, durations nor tags |
| C150 | load and render_frame, with `Spec/Ungroup` | the sprite with the drawable cels, each with an image of its own, is possible in the sense of C129; the sequence of what is drawn is the same |
| C151 | load, load_image and render_frame, with `Spec/Insert` | the sprite with the layer is possible in the sense of C129, the images being numbered in the same order; each cel is drawn as before |
| C152 | load, load_image and render_frame, with `Spec/Repaint` | the sprite with the new images is possible in the sense of C129; raw RGBA images are copied as they are; C134 gives that the frames can be rendered |
| C153 | load, load_image and render_frame, with `Spec/PlainForm` | C147 followed by C150: the cels of the second file are among those of the first one, and each image is shown by a cel |
| C154 | load, load_image and render_frame, with `Spec/Remove` | the sprite without the layer is possible in the sense of C129, the images being numbered in the same order; each cel is drawn as before |
| `C33_cause` (`Props/LoadErrors`) | `FirstBadCel` | the first error of a traversal is that of the first cel in the order of frames and layers; it is unique |

## 4. Deviations found

The theorems with these names exhibit them with concrete inputs.

1. `file.rs:107` tests `>` instead of `>=`: panic (`C04_index_panics`, `C23_index_equal_to_layer_count_panics`).
2. `user_data.rs:148`: `size - 8` underflows (`C04_overflow_panics`).
3. Unbounded recursion on nested properties (`C04_stack_overflow`, `C55_unbounded_recursion`).
4. `FromRepr` turns one unknown code of five enumerations into `Unknown(0)` (`C19_unknown_code_lost`).
5. Three layer flag constants are wrong (`C20_layer_flag_constants_wrong`).
6. Palette chunks are read with `palette_size` entries (`C14_palette_size_misread`).
7. X and Y flip masks of tilemaps are exchanged (`C12_tilemap_flips_swapped`).
8. Nested property maps are read with a key (`C16_nested_map_misread`).
9. With tilemap or unknown layers, cels are drawn with another layer's properties (`C34_wrong_layer`).
10. Rendering panics on undecodable images and unknown blend modes (`C41_render_panics`); raw RGBA data of a wrong size
    panics (`C43_raw_rgba_panics`); a short zlib stream leaves old bytes (`C44_short_stream_keeps_old_bytes`).
11. Soft light's blue channel ignores the source (`C51_blue_ignores_source`).
12. HSL blend modes panic in debug builds and hardly change anything in release builds (`C50_debug_panics`,
    `C50_release_no_effect`); in debug builds even a fully transparent source pixel can panic
    (`C50_transparent_source_panics`); `C50_exactly_partial` says exactly when.
13. Interpolation is not always to the nearest integer (`C45_interpolation_not_nearest`).
14. Cel opacity, z-index, hidden groups, the "layer opacity valid" flag, reference layers and the background layer are
    ignored when rendering (`C58_…`).
15. An unknown chunk between a chunk and its user data detaches the user data (condition in `C06_unknown_chunks`).
16. A sprite with a tilemap cel cannot be loaded at all (C33).
17. The cause of a recoverable error in a frame other than the first is lost: it is always reported as `Eof` at the start
    of that frame (`C61_cause_hidden`); a bad chunk size is reported as `InvalidFrameSize` (`C61_chunk_errors`).
18. Tag ranges may lie outside the sprite (`C67_beyond_the_last_frame`).
19. The number of cel slots is quadratic in the file size (`C60_slots_quadratic`) and rendering allocates whatever size a
    cel declares (`C60_small_file_large_image`).
20. On 32-bit targets the sizes of images and canvases of 2^30 pixels or more overflow (`C69_32_bits_overflow`,
    `C69_32_bits_wrap`).
21. The error message of `load` can contain the rest of the file in decimal (`C71_dump`).
22. Two frames with equal hashes can have different pictures, whatever 64-bit hash is used (`C75_equal_hash_other_picture`);
   frames with the same picture can have different hashes, as cels on hidden layers are hashed
   (`C75_equal_picture_other_hash`).
23. The HSL modes put channels from 0 to 255 into formulas for channels from 0 to 1 and scale the result by 255 once more;
   their sort leaves a channel out when the two smallest are equal (`C76_not_w3c`, `Spec.Hsl.setSatTies`).

## 5. Trusted base

* Lean's kernel (every theorem is checked by it; no `sorry`, no `native_decide`, no `bv_decide`, no own axioms).
  `decide +kernel` is evaluation by the kernel itself.
* Axioms, as `#print axioms` gives them for the theorems of the manifest:
  * none: `C19_injective`, `C19_unknown_code_lost`
  * `propext`: `C102_hsl_false`, `C104_log`, `C104_pure`, `C109_exact`, `C109_soft_exact`, `C117_matters`,
    `C128_exchange`, `C128_next_frame`, `C26_raw_cels`, `C50_transparent_source_panics`, `C57_combined`, `C57_render`,
    `C57_render_agrees`, `C81_any_compression`, `C81_same_image`, `C95_hsl`
  * `propext`, `Quot.sound`: `C104_asked`, `C107_image`, `C109_jump`, `C116_contract`, `C116_load_image`,
    `C116_stable`, `C118_contract`, `C120_final`, `C120_part`, `C126_builds`, `C134_debug_needs_condition`,
    `C19_codes_partial`, `C20_layer_flag_constants_wrong`, `C20_other_flags_partial`, `C29_layers`,
    `C30_frames_and_tags`, `C34_wrong_layer`, `C35_selection`, `C39_not_drawn`, `C40_masks`, `C41_render_panics`,
    `C42_pixel_size`, `C44_short_stream_keeps_old_bytes`, `C52_combined`, `C52_same_hash`, `C57_load`,
    `C57_load_agrees`, `C57_parse`, `C57_parse_agrees`, `C64_local`, `C67_beyond_the_last_frame`, `C68_fits`,
    `C69_32_bits_capacity`, `C69_32_bits_overflow`, `C69_32_bits_wrap`, `C70_read`, `C75_equal_picture_other_hash`,
    `C75_every_hasher_partial`, `C88_not_grey`, `C96_rounding`, `C98_hue_false`
  * `propext`, `Classical.choice`, `Quot.sound`: all others.
* Mathlib is used for real numbers, counting, and lists related element by element (`List.Forall₂`): it is imported by
  `Lemmas/Accuracy`, `Lemmas/F64Real`, `Lemmas/Hash`, `Lemmas/Hsl`, `Lemmas/HslGrey`, `Lemmas/SoftLight`,
  `Props/Baked`, `Props/Crops`, `Props/Opacity`, `Spec/Accuracy`, `Spec/Hsl`, `Spec/Ieee`, `Spec/SoftLight`, and indirectly by what
  imports these.  Everything else uses Lean core only.
* The reading of the Rust source and of nom 8, strum, bitflags, flate2, std (UTF-8 validation, `f64`, `as` casts,
  `checked_add_signed`, `Debug` and `Display`) described above and in the comments of `Verif/Model`.  The code was never run.
* The reading of the format document in `Verif/Spec`.

## 6. Tests of the model

The model is executable.  Besides the proofs it was tested as follows (none of this is part of a proof).

* `Tests/Conformance.lean` restates the unit tests of the crate that need no other crates, with the same sample files,
  as `example`s evaluated by the kernel.
* The model, run by the Lean interpreter with `Model/Inflate`, loads and renders all sample files of `/repo/tests`.
* `Model/Blend` and `Model/F64` were compared on 40 000 random inputs (all 19 modes, both build profiles) with a separate
  transcription of `blend.rs` to Python and its hardware `f64`: no difference.
* `Model/Inflate` was compared with zlib on 877 streams (all block types, truncated and damaged streams): no difference
  in the output or in whether decoding succeeds.
