{"id": "C01", "title": "Scalars are decoded little-endian and leave exactly the unread bytes", "statement": "binary::scalars::{byte,word,short,dword,long,parse_uuid,fixed,parse_point,parse_size,parse_rect,parse_color,parse_rgb} succeed exactly when the input starts with enough bytes, return the little-endian (two's complement for signed) value of those bytes, and return as remaining input exactly the bytes after them; otherwise they return a recoverable nom error and never panic. dword_size, parse_dword_as_usize and parse_dword_as_u8 accept a DWORD exactly if it is at least 4, always, and if it is less than 256, respectively, with its value, and otherwise fail with the error they are given.", "quantifier": "every byte slice", "why_tests_cant": "each value and each length is one point of an unbounded input space", "anchors": ["src/binary/scalars.rs: byte, word, short, dword, long, parse_uuid, fixed, parse_point, parse_size, parse_rect, parse_color, parse_rgb"]}
{"id": "C02", "title": "Strings are accepted iff length-prefixed valid UTF-8", "statement": "parse_string succeeds exactly when the input is a little-endian WORD n followed by n bytes that are the UTF-8 encoding of some text; the returned &str is that text; a short buffer or invalid UTF-8 (overlong, surrogate, out of range, truncated sequence) is an error, never a panic. The reported Utf8Error gives the length of the longest prefix that is text, and the number of bytes after it that begin no character (none if the string ends in the middle of one).", "quantifier": "every byte slice", "why_tests_cant": "UTF-8 validity has many boundary classes and unbounded lengths", "anchors": ["src/binary/scalars.rs: parse_string"]}
{"id": "C03", "title": "File header layout and validation", "statement": "parse_header succeeds exactly on inputs of at least 128 bytes with magic 0xA5E0 at offset 4 and eight zero bytes at offset 20; every field of the returned Header is the field at the documented offset; exactly 128 bytes are consumed and the internal assertion never fires.", "quantifier": "every byte slice", "why_tests_cant": "2^1024 headers; the assertion must hold on all of them", "anchors": ["src/binary/header.rs: parse_header, Header"]}
{"id": "C04", "title": "The binary parser never panics", "statement": "parse_file returns Ok or Err for every byte slice, in debug and release builds; it never panics or aborts.", "quantifier": "every byte slice, both build profiles, every stack size", "why_tests_cant": "a parser fed untrusted bytes must hold on all inputs, and fuzzing only samples", "anchors": ["src/binary/file.rs: parse_file", "src/binary/chunks/user_data.rs: parse_properties_maps, parse_value"]}
{"id": "C05", "title": "Chunk framing follows the declared size", "statement": "parse_chunk consumes exactly the number of bytes given by the chunk's size field: the next chunk begins at that offset whatever the chunk contains, bytes of a chunk beyond its decoded fields are ignored, a chunk never reads past its own end, and a size below 6 or past the end of the frame is an error.", "quantifier": "every byte slice", "why_tests_cant": "framing must hold for each size and content", "anchors": ["src/binary/chunk.rs: parse_chunk, parse_chunks", "src/binary/scalars.rs: dword_size"]}
{"id": "C06", "title": "Unknown chunk types are skipped without effect", "statement": "A chunk whose type is not one of the fourteen known ones never makes parsing fail and has no effect on the resulting File, wherever it is inserted in a frame (except directly in front of a user data chunk, which it detaches from its owner).", "quantifier": "every unknown type, every payload, every position in every chunk sequence", "why_tests_cant": "forward compatibility ranges over formats that do not exist yet", "anchors": ["src/binary/chunk.rs: parse_chunk", "src/binary/chunk_type.rs", "src/binary/file.rs: parse_file"]}
{"id": "C07", "title": "Frame framing and chunk count selection", "statement": "parse_rawframe consumes exactly the frame's size field worth of bytes, requires magic 0xF1FA, returns the duration stored at offset 8, and parses exactly as many chunks as the new DWORD count says, or as the old WORD count says when the new one is zero; surplus bytes in the frame are ignored.", "quantifier": "every byte slice", "why_tests_cant": "each size/count combination is a separate input", "anchors": ["src/binary/raw_frame.rs: parse_rawframe"]}
{"id": "C08", "title": "A file is exactly a header followed by one or more frames", "statement": "parse_raw_file succeeds exactly when the input is a valid header followed by the concatenation of one or more valid frame records and nothing else, and it returns those frames in order; a truncated last frame or trailing bytes are rejected.", "quantifier": "every byte slice", "why_tests_cant": "both directions quantify over all inputs and all numbers of frames", "anchors": ["src/binary/raw_file.rs: parse_raw_file", "src/binary/raw_frame.rs: parse_frames"]}
{"id": "C09", "title": "Informational header fields do not influence parsing", "statement": "The frame count, file size, flags, speed, colour count, pixel ratio and grid fields of the header are reported but never influence what else is parsed: two inputs differing only there yield Files that differ only in those header fields; in particular the number of frames is the number of frame records present, not the header's count.", "quantifier": "every pair of byte slices that differ only in those header fields", "why_tests_cant": "two-run (relational) property over all inputs", "anchors": ["src/binary/header.rs", "src/binary/file.rs: parse_file"]}
{"id": "C10", "title": "Truncated files are rejected unless cut at a frame boundary", "statement": "If a file parses and a proper prefix of it also parses, then the prefix contains a non-empty proper prefix of the frame records of the file (same header, same leading frames): a cut inside the header, a frame or a chunk is always an error.", "quantifier": "every accepted file and every cut point", "why_tests_cant": "every crash point of a partial write or download", "anchors": ["src/binary/raw_file.rs: parse_raw_file", "src/binary/raw_frame.rs: parse_frames, parse_rawframe"]}
{"id": "C11", "title": "Layer chunks are decoded per the format", "statement": "parse_layer_chunk succeeds exactly on the documented layer layout and returns its fields: flags, type, child level, blend mode, opacity, name, and a tileset index exactly for tilemap layers.", "quantifier": "every byte slice", "why_tests_cant": "all field values and name lengths", "anchors": ["src/binary/chunks/layer.rs: parse_layer_chunk, LayerType, LayerFlags"]}
{"id": "C12", "title": "Cel chunks are decoded per the format", "statement": "parse_cel_chunk succeeds exactly on the documented cel layouts (raw image, linked cel, compressed image, compressed tilemap, unknown) and returns position, opacity, z-index and content; image bytes are exactly the rest of the chunk.", "quantifier": "every byte slice", "why_tests_cant": "all field values and payload lengths", "anchors": ["src/binary/chunks/cel.rs: parse_cel_chunk, CelContent"]}
{"id": "C13", "title": "Tags are decoded per the format and have ordered ranges", "statement": "parse_tags_chunk succeeds exactly on the documented layout with from <= to for every tag; every Tag in a parsed File or loaded AsepriteFile has range start <= end; an inverted range makes parsing fail with a non-recoverable InvalidFrameRange error.", "quantifier": "every byte slice", "why_tests_cant": "all tag counts and field values", "anchors": ["src/binary/chunks/tags.rs: parse_tags_chunk, parse_tag"]}
{"id": "C14", "title": "Palette chunks are decoded per the format", "statement": "parse_palette_chunk and parse_old_palette_chunk succeed exactly on the documented layouts (colour indices within 0..=255 and first <= last; a packet colour count of 0 means 256) and return the stored entries in order.", "quantifier": "every byte slice", "why_tests_cant": "all counts, indices and entries", "anchors": ["src/binary/chunks/palette.rs: parse_palette_chunk", "src/binary/chunks/old_palette.rs: parse_old_palette_chunk, parse_packet"]}
{"id": "C15", "title": "Slice chunks are decoded per the format", "statement": "parse_slice_chunk succeeds exactly on the documented layout; every slice key carries a nine-patch exactly when the 9-patch flag is set and a pivot exactly when the pivot flag is set.", "quantifier": "every byte slice", "why_tests_cant": "all key counts and flag combinations", "anchors": ["src/binary/chunks/slice.rs: parse_slice_chunk, parse_slice_key"]}
{"id": "C16", "title": "User data text, colour and property values are decoded per the format", "statement": "parse_user_data_chunk returns text, colour and property maps exactly when the corresponding flag bits are set, and parse_value/parse_vector/parse_properties_map decode exactly the documented encoding of every property type, arbitrarily nested.", "quantifier": "every byte slice and every property tree", "why_tests_cant": "trees of unbounded depth and width", "anchors": ["src/binary/chunks/user_data.rs"]}
{"id": "C17", "title": "Malformed property maps do not make the file unreadable", "statement": "When the property maps of a user data chunk are malformed inside their declared size, the chunk still parses, text and colour are delivered, and the malformation is reported in properties_maps as Some(Err(..)).", "quantifier": "every user data chunk with every malformed property payload", "why_tests_cant": "the malformed payloads are unbounded", "anchors": ["src/binary/chunks/user_data.rs: parse_user_data_chunk, parse_properties_maps"]}
{"id": "C18", "title": "Auxiliary chunks are decoded per the format", "statement": "Color profile, external files, mask, tileset and cel extra chunks are accepted exactly on their documented layouts and their fields are returned unchanged.", "quantifier": "every byte slice", "why_tests_cant": "all field values, counts and payload lengths", "anchors": ["src/binary/chunks/color_profile.rs", "src/binary/chunks/external_files.rs", "src/binary/chunks/mask.rs", "src/binary/chunks/tileset.rs", "src/binary/chunks/cel_extra.rs"]}
{"id": "C19", "title": "Unknown enum codes are preserved", "statement": "For blend mode, cel type, animation direction, colour profile type, external file type, layer type and colour depth: a code with a documented meaning maps to its variant and every other code n maps to Unknown(n), so the conversion loses no information.", "quantifier": "every 16-bit (or 8-bit) code", "why_tests_cant": "the derived from_repr hides an irregular point; sampled codes miss it", "anchors": ["src/binary/blend_mode.rs: BlendMode::from", "src/binary/chunks/cel.rs: CelType::from", "src/binary/chunks/tags.rs: AnimationDirection::from", "src/binary/chunks/color_profile.rs", "src/binary/chunks/external_files.rs", "src/binary/chunks/layer.rs: LayerType::from", "src/binary/color_depth.rs"]}
{"id": "C20", "title": "Flag words are decoded bit by bit", "statement": "A layer's visible flag is exactly bit 0 of its flag word, and every named LayerFlags constant tests exactly the bit the format documents; SliceFlags, UserDataFlags, PaletteEntryFlags, TilesetFlags likewise; undocumented bits are dropped.", "quantifier": "every flag word", "why_tests_cant": "2^16 / 2^32 flag words", "anchors": ["src/binary/chunks/layer.rs: LayerFlags", "src/binary/chunks/slice.rs: SliceFlags", "src/binary/chunks/user_data.rs: UserDataFlags", "src/binary/chunks/tileset.rs: TilesetFlags"]}
{"id": "C21", "title": "Palette resolution: precedence, last writer wins, transparent index", "statement": "The palette of an indexed file is built from the new-style palette chunks of all frames if there are any, else from the 0x0004 chunks, else from the 0x0011 chunks; entry i is the colour written last to index i (black transparent if never written), and the entry at the transparent index has alpha 0.", "quantifier": "every sequence of frames and palette chunks", "why_tests_cant": "histories of palette updates are unbounded", "anchors": ["src/binary/palette.rs: create_palette, process_palette_chunks, process_old_palette_chunks"]}
{"id": "C22", "title": "A palette is present exactly for indexed files", "statement": "A parsed File has palette = Some(..) exactly when its colour depth is Indexed; an indexed file without usable palette chunks is rejected at load time, so load_image on a loaded file never returns MissingPalette.", "quantifier": "every byte slice", "why_tests_cant": "relates two API calls over all inputs", "anchors": ["src/binary/file.rs: parse_file", "src/loader/mod.rs: load_image"]}
{"id": "C23", "title": "Per-frame cel table is indexed by layer", "statement": "In every parsed File each frame has exactly one cel slot per layer; slot i is the last cel chunk of that frame whose layer index is i, or None; a cel whose layer index is not below the number of layers makes parsing fail with LayerIndexOutOfBounds.", "quantifier": "every sequence of frames and chunks", "why_tests_cant": "unbounded chunk sequences, and a boundary index", "anchors": ["src/binary/file.rs: parse_file", "src/binary/frame.rs: Frame"]}
{"id": "C24", "title": "Order of cel chunks of different layers within a frame is irrelevant", "statement": "Swapping two adjacent cel chunks of different layers (together with their user data) in a frame does not change the parsed File.", "quantifier": "every frame, every pair of adjacent cels", "why_tests_cant": "relational property over all chunk sequences", "anchors": ["src/binary/file.rs: parse_file"]}
{"id": "C25", "title": "User data is attached to the right owner", "statement": "A user data chunk directly following a layer, cel or slice chunk is attached to it; the i-th user data chunk directly following a tags chunk is attached to its i-th tag; the first one directly following a palette chunk of the first frame is the sprite's; any other user data chunk is ignored and attached to nothing.", "quantifier": "every sequence of chunks", "why_tests_cant": "unbounded chunk sequences with look-ahead", "anchors": ["src/binary/file.rs: parse_file, next_user_data"]}
{"id": "C26", "title": "Layers, tags and slices are collected completely and in file order", "statement": "File.layers, File.tags and File.slices list every layer, tag and slice of every frame, in file order, unchanged except for the attached user data; frames keep their order and durations.", "quantifier": "every sequence of frames and chunks", "why_tests_cant": "unbounded histories", "anchors": ["src/binary/file.rs: parse_file"]}
{"id": "C27", "title": "Zero-copy: returned texts and slices are contiguous pieces of the input", "statement": "Every image data slice reachable from a loaded AsepriteFile is a contiguous sub-slice of the input bytes. So is every other byte slice that parse_raw_file, parse_file or load returns (tilemaps, tiles, masks, colour profiles, unknown cels, unused property bytes), and every returned text (names, user data texts, property names and texts) is the content of a length-prefixed string that stands in the input.", "quantifier": "every byte slice", "why_tests_cant": "quantifies over all inputs and all returned slices", "anchors": ["src/binary/chunks/cel.rs", "src/binary/raw_file.rs: parse_raw_file", "src/binary/file.rs: parse_file", "src/loader/mod.rs: load"]}
{"id": "C28", "title": "Parsed output is bounded by the input size", "statement": "The numbers of frames, chunks, layers, cels, tags, slices, palette entries and slice keys a parse returns are bounded by the number of input bytes, whatever counts the file declares (no allocation amplification by declared counts); so are all returned texts, byte slices and nested property values taken together.", "quantifier": "every byte slice", "why_tests_cant": "resource bound over adversarial inputs", "anchors": ["src/binary/chunk.rs: parse_chunks", "src/binary/raw_frame.rs: parse_frames"]}
{"id": "C29", "title": "Loaded layers mirror the file", "statement": "AsepriteFile::load exposes, in file order, exactly the normal and group layers of the file, with name, opacity, blend mode, type and visibility flag unchanged.", "quantifier": "every byte slice that loads", "why_tests_cant": "all files", "anchors": ["src/loader/mod.rs: load, Layer"]}
{"id": "C30", "title": "Loaded frames and tags mirror the file", "statement": "frames() has one entry per frame record, in order, with its duration and origin (0,0); tags() has one entry per tag in file order with name, range and direction unchanged, and repeat None exactly when the stored repeat is 0.", "quantifier": "every byte slice that loads", "why_tests_cant": "all files", "anchors": ["src/loader/mod.rs: load, Frame, Tag"]}
{"id": "C31", "title": "Cel references are always valid", "statement": "In every loaded AsepriteFile each FrameCel's image_index is a valid index into images, its size is that image's size, its layer_index is below the number of layers of the file, and no layer occurs twice in a frame.", "quantifier": "every byte slice that loads", "why_tests_cant": "an invariant over all loads that makes later indexing safe", "anchors": ["src/loader/mod.rs: load, FrameCel"]}
{"id": "C32", "title": "Linked cels share the image of the frame they link to", "statement": "A linked cel on layer l with frame position f refers to exactly the image of the image cel on layer l in frame f, wherever that frame is; image cels each get their own image, equal to their data.", "quantifier": "every byte slice that loads", "why_tests_cant": "all frame/link graphs", "anchors": ["src/loader/mod.rs: load"]}
{"id": "C33", "title": "load succeeds exactly on resolvable files", "statement": "load fails exactly when parse_file fails or some frame contains a tilemap/unknown cel or a linked cel whose target slot holds no image cel (dangling, out of range, or itself a link); it never panics once parse_file has returned. The error is about the first such cel in the order of frames and then layers, and for a linked cel it names the frame and the layer of the link.", "quantifier": "every byte slice", "why_tests_cant": "all link graphs", "anchors": ["src/loader/mod.rs: load"]}
{"id": "C34", "title": "A cel is drawn with the properties of its own layer", "statement": "When a frame is rendered, each cel is selected, blended and weighted according to the layer chunk its layer index denotes in the file.", "quantifier": "every loaded file", "why_tests_cant": "needs all mixtures of layer types, in particular tilemap or unknown layers below the cel's layer", "anchors": ["src/loader/mod.rs: load, render_frame"]}
{"id": "C35", "title": "Layer selection by predicate and name", "statement": "select_layers(p) selects exactly the layers satisfying p; select_layers_by_name(names) selects exactly the layers whose name occurs in names; an index outside a mask is not selected.", "quantifier": "every file, predicate and name list", "why_tests_cant": "all predicates", "anchors": ["src/loader/mod.rs: select_layers, select_layers_by_name, LayerSelection::is_selected"]}
{"id": "C36", "title": "Render buffer contract", "statement": "render_frame returns TargetBufferTooSmall exactly when the buffer is shorter than width*height*4 (leaving it untouched); on success the buffer length is unchanged and no byte at or past width*height*4 is modified.", "quantifier": "every file, frame, buffer and selection", "why_tests_cant": "all buffer lengths and contents", "anchors": ["src/loader/mod.rs: render_frame"]}
{"id": "C37", "title": "Rendered pixels are the layer-order composition of the covering cels", "statement": "After a successful render_frame each pixel (x,y) equals the previous content of that pixel, blended in cel order with the decoded pixel of every selected, non-group cel that covers (x,y), using its layer's blend mode and opacity; nothing else contributes.", "quantifier": "every file, frame, selection, buffer and pixel", "why_tests_cant": "the core functional specification, over all images", "anchors": ["src/loader/mod.rs: render_frame", "src/loader/blend.rs"]}
{"id": "C38", "title": "Cels may lie anywhere", "statement": "For every cel origin and size (including negative, far outside, or overflowing 16 bits) rendering never indexes out of bounds; parts outside the canvas are clipped and pixels not covered by any cel keep their value.", "quantifier": "every origin, size and canvas", "why_tests_cant": "boundary arithmetic on i16/u16", "anchors": ["src/loader/mod.rs: render_frame"]}
{"id": "C39", "title": "Groups and deselected layers never contribute", "statement": "Group layers are never drawn, whatever the selection; a layer that is not selected has no influence on the result; rendering with an empty selection leaves the buffer unchanged.", "quantifier": "every file, frame, selection and buffer", "why_tests_cant": "non-interference over all images", "anchors": ["src/loader/mod.rs: render_frame"]}
{"id": "C40", "title": "Visible and All are equivalent to masks", "statement": "Rendering with LayerSelection::Visible equals rendering with select_layers(|l| l.visible), and All equals select_layers(|_| true), for outcome and pixels.", "quantifier": "every file, frame and buffer", "why_tests_cant": "relational over all files", "anchors": ["src/loader/mod.rs: LayerSelection, render_frame"]}
{"id": "C41", "title": "Rendering a loaded file never panics", "statement": "For every loaded file and every valid frame index, render_frame with a large enough buffer returns Ok or an error, never panics.", "quantifier": "every loaded file, frame, buffer, selection, build profile", "why_tests_cant": "adversarial files", "anchors": ["src/loader/mod.rs: render_frame, load_image", "src/loader/blend.rs: blend_mode_to_blend_fn"]}
{"id": "C42", "title": "Image decoding per colour depth", "statement": "On success load_image writes, for RGBA the stored pixels, for grayscale (v,a) pixels the pixels (v,v,v,a), for indexed pixels the palette colours, row by row, uncompressed or zlib-inflated alike.", "quantifier": "every image of every file", "why_tests_cant": "all image contents and sizes", "anchors": ["src/loader/mod.rs: load_image, grayscale_to_rgba, indexed_to_rgba"]}
{"id": "C43", "title": "Image decoding buffer contract and errors", "statement": "load_image returns TargetBufferTooSmall exactly when the buffer is shorter than width*height*4, never modifies bytes past width*height*4, keeps the length, reports wrong-sized raw data as InvalidImageData, inflate failures as DecompressError and unknown depths as UnsupportedColorDepth, and never panics for a valid index.", "quantifier": "every image, buffer", "why_tests_cant": "all sizes and malformed payloads", "anchors": ["src/loader/mod.rs: load_image, decompress"]}
{"id": "C44", "title": "Decoded image is independent of previous buffer contents", "statement": "After load_image returns Ok the first width*height*4 bytes of the buffer depend only on the file and the index, not on what the buffer held before.", "quantifier": "every image and pair of buffers", "why_tests_cant": "two-run property", "anchors": ["src/loader/mod.rs: load_image, decompress"]}
{"id": "C45", "title": "8-bit fixed point multiplication, division and interpolation are exactly rounded", "statement": "The blend arithmetic computes a*b/255, a*255/b and back+(src-back)*o/255 correctly rounded to the nearest integer for all 8-bit operands, without overflow or truncation.", "quantifier": "all 8-bit operands", "why_tests_cant": "exhaustive claim", "anchors": ["src/loader/blend.rs: mul8, div8, blend8"]}
{"id": "C46", "title": "Normal blending laws", "statement": "Blending an opaque source at full opacity yields the source; a transparent source or zero opacity over a visible pixel leaves it unchanged; result colour channels lie between backdrop and source; result alpha is at least each contributing alpha and is source-over alpha; no division by zero.", "quantifier": "all pairs of RGBA colours and all opacities (2^72 cases)", "why_tests_cant": "too many cases to enumerate", "anchors": ["src/loader/blend.rs: normal"]}
{"id": "C47", "title": "Separable blend modes never overflow, truncate or panic", "statement": "Normal, multiply, screen, overlay, darken, lighten, color dodge, color burn, hard light, difference, exclusion, addition, subtract, divide (and soft light) are total on all colours and opacities, in debug and release builds with equal results.", "quantifier": "all pairs of RGBA colours and opacities, both build profiles", "why_tests_cant": "2^72 cases per mode", "anchors": ["src/loader/blend.rs"]}
{"id": "C48", "title": "Transparency laws hold for every blend mode", "statement": "Over a fully transparent backdrop every mode yields the source with scaled alpha; a fully transparent source (or zero opacity) leaves a visible backdrop unchanged in every integer mode.", "quantifier": "all colours, opacities and modes", "why_tests_cant": "2^72 cases per mode", "anchors": ["src/loader/blend.rs: blender, merge, normal"]}
{"id": "C49", "title": "Opaque-on-opaque blending is the mode's formula", "statement": "With opaque backdrop, opaque source and full opacity each separable mode yields exactly its per-channel formula (min, max, |b-s|, min(b+s,255), max(b-s,0), rounded b*s/255, screen, ...) with alpha 255.", "quantifier": "all pairs of opaque colours", "why_tests_cant": "2^48 cases per mode", "anchors": ["src/loader/blend.rs"]}
{"id": "C50", "title": "HSL blend modes keep opaque images opaque and do not panic", "statement": "Hue, saturation, color and luminosity blending of an opaque source on an opaque backdrop yields an opaque colour and does not panic.", "quantifier": "all pairs of colours", "why_tests_cant": "2^48 cases", "anchors": ["src/loader/blend.rs: hsl_hue, hsl_saturation, hsl_color, hsl_luminosity, From<&[f64]> for Color"]}
{"id": "C51", "title": "Soft light treats the three channels alike", "statement": "Soft light applies the same function of (backdrop channel, source channel) to red, green and blue; each result lies in 0..=255.", "quantifier": "all pairs of colours", "why_tests_cant": "a per-channel relational claim on 2^48 inputs", "anchors": ["src/loader/blend.rs: soft_light_baseline, blend_soft_light"]}
{"id": "C52", "title": "combined_frame_image renders the visible layers and its hash depends only on the cel list", "statement": "combined_frame_image produces the same pixels and errors as render_frame with Visible, and two frames with equal lists of (image, layer, origin, size) get equal hashes.", "quantifier": "every file, frame and buffer", "why_tests_cant": "relational", "anchors": ["src/loader/mod.rs: combined_frame_image"]}
{"id": "C53", "title": "Rendering is incremental", "statement": "Rendering first the lower and then the upper part of a frame's layers into the same buffer gives the same pixels as rendering all of them at once.", "quantifier": "every file, frame, buffer and split of the layers", "why_tests_cant": "relational over all images", "anchors": ["src/loader/mod.rs: render_frame"]}
{"id": "C54", "title": "Encode/parse round trip of whole files", "statement": "For every header and every non-empty list of frames of chunks that fit the format's field widths, parsing the bytes the format prescribes returns exactly that header and those frames.", "quantifier": "every abstract file", "why_tests_cant": "unbounded structures", "anchors": ["src/binary/raw_file.rs", "src/binary/chunk.rs"]}
{"id": "C55", "title": "Nested properties are parsed with bounded stack", "statement": "Parsing property values uses stack bounded independently of the input (deeply nested vectors or maps cannot overflow the stack).", "quantifier": "every byte slice and stack size", "why_tests_cant": "needs inputs of unbounded depth", "anchors": ["src/binary/chunks/user_data.rs: parse_value, parse_vector, parse_properties_map"]}
{"id": "C56", "title": "Blending at partial alpha", "statement": "For every visible backdrop, source and opacity, each separable integer mode gives the same result alpha as normal blending; its colour channels are the prescribed two-step interpolation between the normal result and the source-over result of the mode's formula, weighted by the backdrop alpha and by the product of all alphas.", "quantifier": "all pairs of RGBA colours, opacities and separable integer modes", "why_tests_cant": "2^72 cases per mode", "anchors": ["src/loader/blend.rs: blender, merge, blend_channel"]}
{"id": "C57", "title": "Build profile and stack size never change a result", "statement": "For every input, two builds of the crate (debug or release, any stack size) that both finish parsing, loading or rendering give the same file, error, result and buffer; a build with more checks or a smaller stack differs only by panicking with stack exhaustion or a failed overflow/debug check.", "quantifier": "every byte slice, frame, selection and buffer; every pair of build profiles and stack sizes", "why_tests_cant": "tests run in one profile with one stack size, on sample inputs", "anchors": ["src/binary/chunks/user_data.rs", "src/loader/blend.rs", "src/loader/mod.rs: render_frame, combined_frame_image"]}
{"id": "C58", "title": "A rendered frame is the picture the format document describes", "statement": "For every file that loads and every frame whose `Visible` rendering succeeds, each canvas pixel is the composition, in document order, of the images of all shown layers at their positions with their blend modes and opacities, as computed from the chunks of the file by an independent reference renderer. The crate ignores cel opacity, z-index, hidden groups, the layer-opacity-valid flag, reference layers and the background exception for the transparent index, so this holds for frames that do not use them.", "quantifier": "every file, frame, pixel, initial buffer and decompressor", "why_tests_cant": "golden images cover a few sprites; the law is about every combination of layers, cels, links, colour depths and positions", "anchors": ["src/loader/mod.rs: AsepriteFile::render_frame, load, combined_frame_image", "src/binary/file.rs: parse_file"]}
{"id": "C59", "title": "From a sprite to its pixels, end to end", "statement": "For every consistent sprite that can be expressed in the format, encoding it as the format document prescribes, loading the bytes and rendering a frame succeeds for every large enough buffer, reports the sprite's size and durations, and shows the reference picture.", "quantifier": "every sprite (any number of frames, layers, cels and other chunks), frame, buffer and decompressor", "why_tests_cant": "the space of sprites is unbounded", "anchors": ["src/binary/file.rs: parse_file", "src/loader/mod.rs: AsepriteFile::load, render_frame"]}
{"id": "C60", "title": "Memory is proportional to the input", "statement": "Parsing and rendering take memory proportional to the size of the file: the cel slots of a parsed file are bounded by a multiple of its bytes, and the buffer rendering allocates for a cel by a multiple of the data of that cel. (False of the code: slots are frames times layers, which is quadratic in the file size and not worse; a compressed cel is given a buffer of the size it declares, up to 16 GiB, before its data is looked at.)", "quantifier": "every input that parses; every sprite, frame and layer selection", "why_tests_cant": "ranges over all file sizes; the bound must hold for hostile inputs of any length", "anchors": ["src/binary/file.rs: parse_file", "src/loader/mod.rs: AsepriteFile::load_image, AsepriteFile::render_frame"]}
{"id": "C61", "title": "Which error is reported for which input", "statement": "Parsing fails exactly for the listed reasons, each with its own error: four ways a header can be wrong; the first frame's error; for a later frame its failure, or `Eof` at the start of that frame whatever its recoverable error was; an unusable palette of an indexed file; a cel whose layer index exceeds the number of layers. Likewise for frames, chunks, tags and palette chunks. The first reason that applies, in file order, decides. (The cause of a recoverable error in a frame other than the first is always hidden, and a bad chunk size is reported as an invalid frame size.)", "quantifier": "every byte string and every build", "why_tests_cant": "a test shows the error of one malformed input; the claim is an equivalence over all inputs", "anchors": ["src/binary/file.rs: parse_file", "src/binary/raw_file.rs: parse_raw_file", "src/binary/raw_frame.rs: parse_frames", "src/binary/header.rs: parse_header", "src/binary/chunk.rs: parse_chunk", "src/binary/errors.rs: ParseError"]}
{"id": "C62", "title": "Errors point into the input", "statement": "Every error returned by parsing carries either a contiguous part of the input (so that its position can be computed) or numbers that are read from the input and are really invalid; three of the declared error variants are never returned.", "quantifier": "every byte string that is rejected, in every build", "why_tests_cant": "ranges over all rejected inputs and all error paths", "anchors": ["src/binary/errors.rs: ParseError", "src/binary/file.rs: parse_file"]}
{"id": "C63", "title": "The image table has no gaps and no orphans", "statement": "The images of a loaded sprite are exactly the images stored in its cels, ordered by frame and then by layer; `image_count()` is the number of cels that store an image; every image number below it is used by a cel of the frame storing that image; `slices()` returns the slices of all frames in file order with their user data.", "quantifier": "every input that loads, in every build", "why_tests_cant": "ranges over all files; a counting or ordering slip only shows on particular arrangements of links and empty cels", "anchors": ["src/loader/mod.rs: AsepriteFile::load, image_count, slices, tags, layers, frames"]}
{"id": "C64", "title": "Rendering a frame depends only on that frame", "statement": "If two sprites (or two frames of one sprite) agree in canvas size, colour depth, palette (if indexed), layers, and in the positions, sizes, layers and images of the cels of the rendered frames, rendering gives the same result and leaves the same buffer, for every selection and initial buffer. Other frames, tags, slices, user data, durations and the numbering of frames and images do not matter.", "quantifier": "every pair of sprites and frames, selection, buffer and decompressor", "why_tests_cant": "a non-interference property over pairs of executions", "anchors": ["src/loader/mod.rs: AsepriteFile::render_frame, load_image"]}
{"id": "C65", "title": "Appending frames does not change the earlier ones", "statement": "If frames without layer and palette chunks are appended to a file (whether or not the informational header fields are updated) and both files load, then size, layers and palette are the same, the old frames and images come first and are unchanged, and every old frame renders exactly as before.", "quantifier": "every file, every list of appended frames, every frame, selection, buffer and decompressor", "why_tests_cant": "relates the results for all pairs of a file and its extensions", "anchors": ["src/binary/file.rs: parse_file", "src/loader/mod.rs: AsepriteFile::load, render_frame"]}
{"id": "C66", "title": "Rendering never makes a pixel more transparent", "statement": "After a successful rendering the alpha of every canvas pixel is at least what it was, so an opaque canvas stays opaque; without HSL blend modes the alpha is independent of colours and blend modes: it is the previous alpha composed by 1-(1-a)(1-b) with the effective alphas of the cel pixels drawn there.", "quantifier": "every sprite, frame, selection, buffer, pixel and decompressor", "why_tests_cant": "ranges over all colours, opacities and layer stacks", "anchors": ["src/loader/mod.rs: AsepriteFile::render_frame", "src/loader/blend.rs: blend_mode_to_blend_fn, normal, merge, blender"]}
{"id": "C67", "title": "Tags name frames of the sprite", "statement": "The range of every tag of a loaded sprite is non-empty and lies within the frames of the sprite, so that indexing `frames()` with it is safe. (False of the code: ranges are not compared with the number of frames.)", "quantifier": "every input that loads", "why_tests_cant": "a user indexing frames by tag ranges relies on it for every file", "anchors": ["src/loader/mod.rs: AsepriteFile::load, tags, frames", "src/binary/chunks/tags.rs: parse_tag"]}
{"id": "C68", "title": "How an image is stored does not matter", "statement": "Two files that differ only in the data of their images (stored as they are or as zlib streams, compressed in any way) and in the file size noted in the header give the same error or panic or both load; then layers, frames, tags, slices and the sizes of images are the same, and where the data of corresponding images stands for the same pixels, load_image and render_frame give the same result and bytes for every buffer and selection.", "quantifier": "every pair of such files, every image, frame, selection, buffer and decompressor", "why_tests_cant": "ranges over all images and all ways to compress them", "anchors": ["src/loader/mod.rs: AsepriteFile::load, load_image, render_frame, decompress", "src/binary/image.rs: Image", "src/binary/chunks/cel.rs: parse_cel_chunk"]}
{"id": "C69", "title": "Results do not depend on the width of usize", "statement": "Loading, decoding and rendering give the same result and buffer on 32-bit targets (such as wasm32) as on 64-bit targets, and no computation with usize overflows on 64-bit targets. (False of the code on 32-bit targets for images or canvases of 2^30 pixels or more: debug builds panic and release builds accept buffers that are too small; cels of 2^29 pixels or more cannot be rendered there.)", "quantifier": "every input, image, frame, selection, buffer and decompressor, both widths and both build profiles", "why_tests_cant": "overflow depends on the products of all sizes an input can declare; tests run on one target with small images", "anchors": ["src/loader/mod.rs: AsepriteFile::load_image, render_frame, grayscale_to_rgba, indexed_to_rgba", "src/binary/chunks/user_data.rs: parse_properties_maps", "src/binary/scalars.rs: parse_dword_as_usize"]}
{"id": "C70", "title": "How much work an input can cause", "statement": "Whatever sizes and counts an input declares, reading it takes a number of steps linear in its length (at most two per byte), and loading it at most three per byte and three per pair of a frame and a layer; files of n frames with a layer each show that the product is needed. Loading an image and rendering a frame take a number of steps given by the sizes of the images of the cels that are drawn, independent of the canvas and of the contents of images and buffers.", "quantifier": "every input, image, frame, selection, buffer and decompressor", "why_tests_cant": "a service that accepts uploads relies on it for every hostile input; tests measure the inputs they have", "anchors": ["src/binary/raw_file.rs: parse_raw_file", "src/binary/file.rs: parse_file", "src/loader/mod.rs: AsepriteFile::load, load_image, render_frame"]}
{"id": "C71", "title": "The text of load's error: what it says, that it tells errors apart, and how long it gets", "statement": "Every error message of AsepriteFile::load is one of eight texts, and the numbers and bytes in it are those of the file: the bytes where a fixed field or the magic number was missing (in decimal), the position and length of the bytes that are not UTF-8, the bad frame size, the inverted tag range, the palette problem, a layer index out of bounds, the frame and layer of the first linked cel without an image, or a cel of another type. Different errors have different messages. A message is a non-empty line of printable ASCII characters, of at most 5 characters per byte of the file and 100 more. It can be that long: if a file is cut after its first frame the message contains all of the cut frame in decimal, at least 3 characters per byte.", "quantifier": "every byte slice that load rejects", "why_tests_cant": "the message embeds arbitrary parts of the input of unbounded size", "anchors": ["src/loader/mod.rs: AsepriteFile::load, LoadSpriteError, LoadImageError", "src/binary/errors.rs: ParseError"]}
{"id": "C72", "title": "What pictures depend on", "statement": "The pictures of a file (the number of frames and images, the pixels of load_image, the pixels, errors and panics of render_frame for every layer selection, and the picture and hash of combined_frame_image) depend only on the size of the canvas, the colour depth, the transparent index, and, frame by frame, the sequence of layers (type, visibility, blend mode, opacity), cels (layer, position, contents) and palette colours. Names, durations, tags, slices, user data, cel opacity and z-index, the other layer flags, external files, masks, colour profiles, tilesets and chunks of unknown type have no influence, neither on the pictures nor on whether load succeeds or with what error it fails.", "quantifier": "all pairs of byte strings that parse as files, all frames, images, selections, buffers, decompressors and hash functions", "why_tests_cant": "Independence is a statement about every pair of files that differ in the ignored parts; a test can only compare a few pairs.", "anchors": ["src/loader/mod.rs: load, load_image, render_frame, combined_frame_image", "src/binary/file.rs: parse_file"]}
{"id": "C73", "title": "Moving all cels and resizing the canvas moves and crops the pictures", "statement": "If a file differs from another one only in that all its cels are moved by the same amount, and in the size of its canvas (which is how the editor crops or enlarges a sprite), then it loads exactly if the other one does and with the same error if not; its images are decoded to the same pixels; and each rendered frame shows the same colours as the other one, moved by that amount and cut off at the edges of its canvas, for cels that lie partly or wholly outside of either canvas too.", "quantifier": "all pairs of byte strings that parse as such files, all offsets, canvas sizes, frames, selections, buffers and decompressors", "why_tests_cant": "Equivariance is a statement about all offsets and canvas sizes, including cels at negative positions; tests compare a few.", "anchors": ["src/loader/mod.rs: load, render_frame", "src/binary/file.rs: parse_file"]}
{"id": "C74", "title": "An opaque pixel hides what is below it", "statement": "Where a frame has an opaque pixel on a drawn layer of full opacity and mode Normal, the rendered colour depends only on that pixel and the cels above it, not on the cels below nor on the previous contents of the buffer; if no drawn cel above covers the place, the rendered colour is the stored one.", "quantifier": "all loaded sprites, frames, selections, decompressors, buffers and pixels", "why_tests_cant": "Whether anything below can shine through depends on all colours, cels and buffers.", "anchors": ["src/loader/mod.rs: render_frame", "src/loader/blend.rs: normal"]}
{"id": "C75", "title": "The hash returned with a frame identifies its picture", "statement": "Two frames of a sprite for which combined_frame_image returns the same hash have the same picture.", "quantifier": "all loaded sprites, pairs of frames, decompressors and buffers", "why_tests_cant": "Collisions of a hash are not found by tests.", "anchors": ["src/loader/mod.rs: combined_frame_image"]}
{"id": "C76", "title": "The HSL modes compute the colour of their formulas", "statement": "Hue, saturation, color and luminosity blending gives the colour that the formulas for non-separable blend modes (Lum, Sat, ClipColor, SetLum, SetSat) give, up to rounding, composited like any other mode.", "quantifier": "all pairs of colours, all opacities, the four modes", "why_tests_cant": "2^72 cases per mode, and rounding errors of dozens of floating point operations that cancel or get amplified by divisions.", "anchors": ["src/loader/blend.rs: hsl_hue_baseline, hsl_saturation_baseline, hsl_color_baseline, hsl_luminosity_baseline, luminosity, saturation, clip_color, set_luminocity, set_saturation, static_sort3_orig, From<&[f64; 4]> for Color"]}
{"id": "C77", "title": "A pixel depends only on the cels that cover it", "statement": "The colour of a canvas pixel after rendering depends only on its colour before and on the colours painted on it, with the modes and opacities of their layers, in order. So exchanging, adding or removing cels changes only pixels those cels cover, exchanging two neighbouring cels that overlap nowhere changes nothing, and neither does changing palette entries that no image of the frame uses.", "quantifier": "all pairs of files that load, all frames, selections, inflaters, canvases, pixels", "why_tests_cant": "Incremental redraw and layer reordering rely on the absence of any influence between pixels, for every pair of sprites; tests compare few pairs.", "anchors": ["src/loader/mod.rs: AsepriteFile::render_frame, AsepriteFile::load_image"]}
{"id": "C78", "title": "Rendering is close to exact compositing", "statement": "On an opaque canvas the channels of a rendered pixel differ from exact (unrounded) compositing by at most 5/2 per cel painted on it, 3/2 if all are painted normally, for the modes that do not magnify differences; with normally painted cels that hide at least the part p of what is below them the error is at most 3/(2p), however many there are. The alpha is within 1 per cel on any canvas. One stroke in any of the fourteen integer modes is within 5/2, in soft light within 2 (with the backdrop in place of the source for blue, see C51), and normal blending on a translucent pixel within 1 + 255/alpha.", "quantifier": "all files that load, frames, selections, inflaters, canvases, pixels; all pairs of colours and opacities; any number of cels", "why_tests_cant": "The accumulated rounding error over any number of layers cannot be bounded by samples.", "anchors": ["src/loader/blend.rs: normal, mul8, div8, blender, merge, multiply, screen, overlay, darken, lighten, color_dodge, color_burn, hard_light, difference, exclusion, addition, subtract, divide", "src/loader/mod.rs: AsepriteFile::render_frame"]}
{"id": "C79", "title": "Colour channels do not mix", "statement": "Unless one of the modes on hue, saturation and luminosity is involved, a colour channel of a rendered pixel depends on the same channel and the alphas only, of what is painted on the pixel and of what was there before, and the three channels are treated alike, except by soft light.", "quantifier": "all pairs of files that load, frames, selections, canvases, pixels and channels", "why_tests_cant": "Independence of everything in the other channels is a statement about all pairs of pictures.", "anchors": ["src/loader/blend.rs: blend_mode_to_blend_fn, blender, blend_channel, normal, merge, blend8, mul8, soft_light_baseline", "src/loader/mod.rs: AsepriteFile::render_frame"]}
{"id": "C80", "title": "Brighter in, brighter out", "statement": "If what is painted on a pixel and what was there before are nowhere darker in a channel than for another pixel, with the same alphas, opacities and modes, then the result is not darker, for the eleven modes whose formulas rise in both colours.", "quantifier": "all pairs of files that load, frames, selections, canvases, pixels and channels", "why_tests_cant": "Rounding could reverse the order of neighbouring values in some of 2^48 cases per mode, and in more for several layers.", "anchors": ["src/loader/blend.rs: blend_mode_to_blend_fn, blender, blend_channel, normal, merge, blend8, mul8, soft_light_baseline", "src/loader/mod.rs: AsepriteFile::render_frame"]}
{"id": "C81", "title": "Compressed images are zlib streams", "statement": "Given a decompressor that does what RFC 1950 and RFC 1951 say, load_image of a compressed image of a known colour depth with a large enough target succeeds exactly when the data begins with a zlib stream whose content is no longer than the pixels of the image, and otherwise returns DecompressError; the pixels in the content are the pixels written. Content and end of a stream are determined by the data, every content has a stream, and images compressed in different ways (levels, blocks, codes, matches), or not at all, are the same images.", "quantifier": "all files that load, images, targets and zlib streams: any blocks, codes, code lengths, literals and matches", "why_tests_cant": "Streams are unbounded and the same pixels have unboundedly many of them; tests try what one compressor writes.", "anchors": ["src/loader/mod.rs: decompress, AsepriteFile::load_image"]}
{"id": "C82", "title": "Neutral colours", "statement": "A stroke in the neutral colour of its mode (white for multiply, darken, color burn and divide; black for screen, lighten, color dodge, difference, exclusion, addition and subtract) does not change an opaque pixel, whatever its alpha and the opacity of its layer; channel by channel, too. So layers of neutral colour can be added to or removed from a sprite without a change in the picture on an opaque canvas.", "quantifier": "all files that load, frames, selections, opaque canvas pixels, strokes", "why_tests_cant": "Per mode 2^40 combinations of colour, alpha and opacity, and any number of layers.", "anchors": ["src/loader/blend.rs: blend_mode_to_blend_fn, blender, blend_channel, normal, merge, multiply, screen, overlay, darken, lighten, color_dodge, color_burn, hard_light, difference, exclusion, addition, subtract, divide", "src/loader/mod.rs: AsepriteFile::render_frame"]}
{"id": "C83", "title": "Negatives", "statement": "If the canvas and everything painted on it is replaced by its negative and the modes by their duals (multiply and screen, darken and lighten, dodge and burn; normal, overlay and hard light stay; addition and subtract, divide and burn with the colour as it is), the picture on an opaque canvas becomes its exact negative: rounding is symmetric.", "quantifier": "all pairs of files that load, frames, selections, opaque canvas pixels", "why_tests_cant": "Exact symmetry of all roundings, for any number of layers.", "anchors": ["src/loader/blend.rs: blend_mode_to_blend_fn, blender, blend_channel, normal, merge, multiply, screen, overlay, darken, lighten, color_dodge, color_burn, hard_light, difference, exclusion, addition, subtract, divide", "src/loader/mod.rs: AsepriteFile::render_frame"]}
{"id": "C84", "title": "When the order of layers does not matter", "statement": "Opaque layers at full opacity which all darken, all lighten, all add or all subtract can be put in any order. On two opaque colours multiply, screen, darken, lighten, difference, exclusion and addition are symmetric, and overlay is hard light with the colours exchanged.", "quantifier": "all pairs of files that load, frames, selections, opaque canvas pixels, permutations of the strokes", "why_tests_cant": "All permutations of any number of layers.", "anchors": ["src/loader/blend.rs: blend_mode_to_blend_fn, blender, blend_channel, normal, merge, multiply, screen, overlay, darken, lighten, color_dodge, color_burn, hard_light, difference, exclusion, addition, subtract, divide", "src/loader/mod.rs: AsepriteFile::render_frame"]}
{"id": "C85", "title": "Darkening layers darken, lightening layers lighten", "statement": "On an opaque pixel strokes in the modes multiply, darken, color burn and subtract never make a channel brighter, strokes in the modes screen, lighten, color dodge, addition and divide never darker. With the modes normal, darken and lighten, on any canvas, no channel leaves the range of what was there and what is painted.", "quantifier": "all files that load, frames, selections, canvas pixels, strokes", "why_tests_cant": "Overshoot by rounding could occur for single values of colour, alpha and opacity.", "anchors": ["src/loader/blend.rs: blend_mode_to_blend_fn, blender, blend_channel, normal, merge, multiply, screen, overlay, darken, lighten, color_dodge, color_burn, hard_light, difference, exclusion, addition, subtract, divide", "src/loader/mod.rs: AsepriteFile::render_frame"]}
{"id": "C86", "title": "Reserved bytes are ignored", "statement": "Two files that differ only in bytes the format document reserves or declares ignored at a fixed place of the header, of frames or of chunks (layer, cel, colour profile, external files, mask, tags, palette, slice, tileset), in any number of places, are read alike: parsing the records, parsing the file and loading succeed on both or on neither and give the same result; if the records are readable, also the same error.", "quantifier": "all byte strings, all frames and chunks in them, all values of the reserved bytes, both build profiles", "why_tests_cant": "A newer version of the format may put anything into these bytes at any place of any file; tests use zeros.", "anchors": ["src/binary/header.rs: parse_header", "src/binary/raw_frame.rs: parse_rawframe", "src/binary/chunks/layer.rs: parse_layer_chunk", "src/binary/chunks/cel.rs: parse_cel_chunk", "src/binary/chunks/tags.rs: parse_tags_chunk", "src/binary/chunks/palette.rs: parse_palette_chunk", "src/binary/chunks/tileset.rs: parse_tileset_chunk", "src/binary/chunks/slice.rs: parse_slice_chunk"]}
{"id": "C87", "title": "The colour mode does not matter", "statement": "Take two files with canvases of the same size and the same frames, layers, cels, tags and slices, in any colour modes (RGBA, grayscale, indexed) and with any palettes, that may differ in the pixels of their images.  If both palettes are accepted, loading gives the same error or succeeds on both; then layers, frames, tags and slices are the same.  Images that show the same colours, each in its own colour mode and with its own palette, are decoded to the same bytes, and frames made of such images are rendered to the same bytes for every selection of layers and every buffer.  Converting the images of a sprite to RGBA, or rearranging the palette and the indices of an indexed sprite, gives such images.", "quantifier": "all pairs of files of the described kind, all decompressors, all images, frames, selections and buffers, both build profiles", "why_tests_cant": "Converting a sprite between colour modes must not change any picture; there are too many sprites, palettes and selections to compare.", "anchors": ["src/loader/mod.rs: AsepriteFile::load, load_image, render_frame", "src/binary/palette.rs: create_palette", "src/binary/file.rs: parse_file"]}
{"id": "C88", "title": "Grey stays grey", "statement": "Rendering a grayscale sprite on a grey or empty canvas gives grey pixels (red, green and blue are the same), for every selection of layers; more generally, painting greys on a grey pixel leaves it grey.  (False of the code if a soft light, hue or saturation layer is drawn.)", "quantifier": "all grayscale sprites, frames, selections, buffers and decompressors, both build profiles", "why_tests_cant": "All combinations of greys, alphas, opacities and blend modes of any number of layers.", "anchors": ["src/loader/mod.rs: render_frame", "src/loader/blend.rs: blend_mode_to_blend_fn, soft_light_baseline, hsl_hue_baseline, set_saturation"]}
{"id": "C89", "title": "Flipping, turning and enlarging", "statement": "If a sprite is another one flipped from left to right or from top to bottom, with rows and columns exchanged, or with every pixel enlarged to a square of n by n (same layers, changed canvas, every cel changed and moved accordingly, also cels that reach over the edges), its rendered frames are the frames of the other one changed in the same way, for every selection of layers.", "quantifier": "all pairs of loaded sprites, changes, frames, selections, buffers and decompressors, both build profiles", "why_tests_cant": "All sizes, positions (also negative ones), clippings and enlargements.", "anchors": ["src/loader/mod.rs: render_frame", "src/loader/blend.rs: blend_mode_to_blend_fn"]}
{"id": "C90", "title": "Every sequence of pictures can be stored and shown", "statement": "For every nonempty sequence of RGBA pictures of one size, with durations, the file with one visible layer and one canvas-filling cel per frame (stored raw, or by any compressor the decompressor understands) loads, has that size and those durations, and rendering frame i into a cleared buffer gives exactly picture i; over other contents it does so wherever the buffer was transparent or the picture is opaque, and bytes behind the canvas stay. Hence every sprite can be flattened: its rendered frames, stored that way, are shown as they are.", "quantifier": "all sequences of pictures and durations (sizes that fit a chunk), compressors, decompressors and buffers; all loaded sprites and selections of layers; every build profile and stack size", "why_tests_cant": "All pictures, sizes and lengths.", "anchors": ["src/binary/file.rs: parse_raw_file, parse_file", "src/loader/mod.rs: AsepriteFile::load, render_frame", "src/loader/blend.rs: normal"]}
{"id": "C91", "title": "What a panic leaves in the buffer", "statement": "If render_frame panics and the caller catches that, the buffer holds a well-defined intermediate picture: there is a first cel that cannot be drawn, and every canvas pixel shows what drawing the cels below it gives. If the panic is not a failed debug assertion (in a release build it never is), nothing of that cel has been painted and the buffer is the one that rendering the frame without that cel and those above it leaves. If it is a failed debug assertion, there is a pixel on which blending fails, and exactly the pixels before it in reading order also show that cel. No pixel is half written.", "quantifier": "all byte sequences that load, frames, selections, buffers, decompressors; every panic; every build profile", "why_tests_cant": "All crash points: which cel and which pixel fail depends on the file and on the contents of the buffer.", "anchors": ["src/loader/mod.rs: render_frame", "src/loader/blend.rs: blend_mode_to_blend_fn"]}
{"id": "C92", "title": "A frame is rendered from what it shows", "statement": "Two frames, of one file or of two, that show the same on each layer (position and image, stored or linked) on the same stage (size, colour depth, transparent index, layers, palettes) are rendered alike. Hence links only share images: replacing any links by copies of the image gives a file that loads and has the same pictures. And frames can be rearranged, repeated and left out: a file whose frames have the cels of some frames of a file without links, in any order, loads and has the pictures of those frames.", "quantifier": "all pairs of files that parse, sets of links, sequences of frames; all selections, decompressors and buffers; every build profile", "why_tests_cant": "All files and all ways to link and to arrange frames.", "anchors": ["src/loader/mod.rs: AsepriteFile::load, render_frame", "src/binary/file.rs: parse_file"]}
{"id": "C93", "title": "A frame is the sequence of images it draws", "statement": "Rendering a frame with a selection of layers depends only on the canvas (size, colour depth, transparent index, palettes) and on the sequence of images that the frame shows on its normal, selected layers, with their positions, blend modes and opacities: two frames, of one file or of two, with selections that draw the same sequence, are rendered alike. Hence inserting or deleting a layer that is hidden, a group, or empty in that frame does not change the picture, although it changes the numbers of the layers above it.", "quantifier": "all pairs of files without tilemap layers that load, frames, selections, decompressors and buffers; every place of the inserted layer; every build profile", "why_tests_cant": "All files, layers and selections.", "anchors": ["src/loader/mod.rs: AsepriteFile::load, render_frame, LayerSelection", "src/binary/file.rs: parse_file"]}
{"id": "C94", "title": "What a failed or repeated load_image leaves in the buffer", "statement": "A call of load_image that fails (error or panic) leaves the buffer as it was, with one exception: for a compressed image of a 32 bit sprite whose stream cannot be decompressed, the front of the buffer holds what the decompressor gave out, not beyond the image, and the rest is as it was. Calling load_image twice with the same image and buffer is the same as calling it once: same result, same buffer, whether it succeeds or fails.", "quantifier": "all files that load, image numbers (also beyond the last image), decompressors and buffers", "why_tests_cant": "All ways to fail, for all images, buffers and decompressors.", "anchors": ["src/loader/mod.rs: AsepriteFile::load_image, decompress, grayscale_to_rgba, indexed_to_rgba"]}
{"id": "C95", "title": "What cannot be seen does not matter", "statement": "Strokes that cannot be seen (a pixel of alpha 0, a layer of opacity 0, or, in all modes but the four HSL modes, alpha times opacity rounding to 0) and the colours of fully transparent pixels in the buffer have no influence on what can be seen: two frames that paint the same on a pixel apart from such strokes, on pixels that looked the same (same alpha, same colour unless fully transparent), show pixels that look the same. In particular showing or hiding layers of opacity 0 changes nothing that can be seen.", "quantifier": "all loaded sprites, frames, selections, decompressors, buffers and pixels for which rendering succeeds; every blend mode and build profile", "why_tests_cant": "All stacks of layers and colours; hidden colours of transparent pixels could leak through any mode.", "anchors": ["src/loader/blend.rs: normal, blender, merge and all blend modes", "src/loader/mod.rs: AsepriteFile::render_frame"]}
{"id": "C96", "title": "Merging the lower layers is exact", "statement": "Render the selected layers of a frame below some layer k, and let another sprite of the same size have one cel with that picture (mode Normal, full opacity) in their place, below the same remaining cels: both frames give the same bytes on every canvas pixel that was fully transparent before rendering, and wherever the merged picture is opaque; on a cleared canvas they give the same buffer. (Merging layers that are not the lowest is not exact: rounding shows.)", "quantifier": "all pairs of loaded sprites so related, frames, splits of the layers, selections, decompressors and buffers for which rendering succeeds", "why_tests_cant": "All layer stacks and colours; rounding at any step could show.", "anchors": ["src/loader/mod.rs: AsepriteFile::render_frame", "src/loader/blend.rs: normal"]}
{"id": "C97", "title": "Other bytes in an image change nothing but that image", "statement": "Exchange any bytes of the data of one image in a file for as many others: both files load or none; size, colour depth, palette, layers, frames, tags and slices are the same, and at most that one image differs, by those bytes. All other images are decoded as before and all frames that do not use it are rendered as before. If the image is not compressed, only canvas pixels that show one of the changed pixels are rendered differently.", "quantifier": "all files, cel chunks with an image (compressed or not) in them, positions in its data, replacement bytes; then all images, frames, selections, decompressors, buffers and canvas pixels", "why_tests_cant": "Any file, any position and any damage; whether the rest survives depends on the parser taking nothing else from those bytes.", "anchors": ["src/binary/chunks/cel.rs: parse_cel_chunk", "src/binary/chunk.rs: parse_chunk", "src/loader/mod.rs: AsepriteFile::load, load_image, render_frame"]}
{"id": "C98", "title": "More in, more opaque out", "statement": "Compare two rendered pixels, of the same sprite or of two. If the second starts from a value that is at least as opaque and everything painted on the first has something at least as opaque (colour alpha and layer opacity) painted on the second in its place, in the same order, with whatever else between, then the second result is at least as opaque, whatever the colours and blend modes, except the modes on hue, saturation, colour and luminosity. In particular selecting more layers never makes a pixel more transparent.", "quantifier": "all pairs of files, frames, selections, buffers and pixels; for selections all pairs of selections one of which includes the other", "why_tests_cant": "The alpha is rounded at every layer; whether rounding can turn the order around depends on all values and on the number of layers.", "anchors": ["src/loader/blend.rs: blend functions", "src/loader/mod.rs: render_frame", "src/binary/blend_mode.rs: BlendMode"]}
{"id": "C99", "title": "Palette swaps", "statement": "Exchange the palettes of an indexed file for others, of any kind, number and place, and the transparent index for another. If the new palette is accepted, the file still loads, with the same layers, frames, tags, slices, size and images. Every image decodes with the same result and shows the same colour numbers, in the colours of the new palette. If the layers drawn are of mode Normal and full opacity and each colour is either opaque in both palettes or transparent in both, then every rendered pixel is left as it was with both, or is transparent with both, or shows one and the same colour number with both.", "quantifier": "all indexed files, replacement palettes, images, frames, selections, decompressors and buffers", "why_tests_cant": "Any palette, old or new style, in any number of chunks; the pixels shown depend on all of it.", "anchors": ["src/binary/palette.rs: create_palette", "src/binary/file.rs: parse_file", "src/loader/mod.rs: AsepriteFile::load, load_image, render_frame"]}
{"id": "C100", "title": "Painting a frame once more", "statement": "Rendering a frame a second time, over its own picture, changes no pixel on which everything is painted with full opacity in the modes Normal, Darken and Lighten, or cannot be seen, whatever was in the buffer before. If that is so on the whole canvas, the second rendering succeeds and leaves the buffer as it is. With translucent layers or other modes it may change pixels.", "quantifier": "all files, frames, selections, decompressors and buffers", "why_tests_cant": "any number of layers, any colours, and any previous contents of the buffer including translucent ones", "anchors": ["src/loader/mod.rs: AsepriteFile::render_frame", "src/loader/blend.rs: normal, darken, lighten"]}
{"id": "C101", "title": "Selecting layers is switching their eyes", "statement": "Let two files differ, of all that is painted, only in which layers are marked visible. If one of them loads, so does the other. If a selection takes the same layers of the one file, groups apart, as a selection takes of the other, every frame is rendered alike. So rendering by a mask gives what rendering the visible layers gives after exactly the layers of the mask were made visible in the editor, and for the selections All and by mask the visibility marks do not matter.", "quantifier": "all pairs of files of this kind, all selections, frames, decompressors and buffers", "why_tests_cant": "any number of layers and frames, any marks and masks, any contents", "anchors": ["src/loader/mod.rs: render_frame, LayerSelection, select_layers, from_file", "src/binary/chunks/layer.rs: LayerFlags"]}
{"id": "C102", "title": "Opacity can be moved into the pixels", "statement": "In every blend mode except those on hue, saturation, colour and luminosity only the rounded product of the alpha of a pixel and the opacity of its layer matters: two pixels painted with two opacities act alike on every backdrop exactly if their red, green and blue are the same and the products are. So a tool may multiply the opacity of a layer into the alpha of its pixels and make the layer opaque, and no picture changes.", "quantifier": "all modes but the four, all pairs of colours and opacities, all backdrops; all pairs of files that load, frames, selections and buffers", "why_tests_cant": "two colours, two opacities and a backdrop are 112 bits per mode, and pictures are made of any number of layers", "anchors": ["src/loader/blend.rs: normal, merge, blender, blend_channel, mul8", "src/loader/mod.rs: AsepriteFile::render_frame"]}
{"id": "C103", "title": "How a picture is cut into cels does not matter", "statement": "A cel may be cut into pieces, for instance between two of its columns or of its rows, each piece becoming a cel of its own in its place and on a layer of the same mode and opacity: the rendered bytes stay the same. Fully transparent pixels around a cel may be left out, as the editor does when it saves: every pixel of the picture looks the same (same alpha, and same red, green and blue unless the alpha is 0), and on a canvas that was opaque the rendered bytes are the same.", "quantifier": "all pairs of files of the same size that load, frames whose cels correspond in this way, selections, buffers and decompressors", "why_tests_cant": "the ways to cut and trim are as many as there are rectangles, cels may begin outside of the canvas, and what lies below is arbitrary", "anchors": ["src/loader/mod.rs: AsepriteFile::render_frame, AsepriteFile::get_image", "src/loader/blend.rs: blend_mode_to_blend_fn"]}
{"id": "C104", "title": "The predicate of select_layers is asked once per layer, in order", "statement": "select_layers calls the predicate it is given on every layer, exactly once each and in the order of the layers, and the selection consists of the answers. If the predicate panics it is not called again and the panic reaches the caller. So predicates with memory (counters, logs, positions) work as written.", "quantifier": "all sprites, all predicates with any state and any effect on it, including panicking ones", "why_tests_cant": "predicates are arbitrary code with arbitrary state; a test can try only a few", "anchors": ["src/loader/mod.rs: AsepriteFile::select_layers"]}
{"id": "C105", "title": "Calls that run at the same time do not disturb each other", "statement": "Several calls of render_frame, combined_frame_image and load_image, on one sprite or on several, run at the same time (in threads) with buffers that do not overlap. Whatever the order in which their accesses to memory happen, each call that returns has returned what it returns when it runs alone and leaves in its buffer what it then leaves; at every earlier moment it is as far as it would be alone after as many steps; every call returns after a number of its own steps that does not depend on the others; nothing outside the buffers changes. So the frames of a sprite may be rendered in parallel, and a call that fails, panics or never gets time does not affect the others.", "quantifier": "all sprites, all lists of calls, all memories and buffers that do not overlap, all schedules (orders of the accesses, fair or not)", "why_tests_cant": "the number of interleavings is exponential in the number of accesses, and a test sees the few that its machine happens to produce", "anchors": ["src/loader/mod.rs: AsepriteFile::render_frame, AsepriteFile::combined_frame_image, AsepriteFile::load_image", "src/lib.rs: forbid(unsafe_code)"]}
{"id": "C106", "title": "What is in the buffer while a call runs", "statement": "At every moment while render_frame or combined_frame_image runs (whatever else runs, and also if it is stopped for ever at that moment) there are a cel of the frame and a place on the canvas such that every pixel before the place in reading order shows the composition of the cels up to and including that cel, and every other pixel that of the cels below it. Only the pixel at that place can be half written, and then its channels are written in the order red, green, blue, alpha. Bytes behind the canvas are as they were. load_image of a greyscale or indexed sprite writes from left to right: the buffer begins with the bytes it will hold in the end and goes on with those it held before. Moments are those between two accesses to the buffer in the order of the source.", "quantifier": "all files that load, all frames, all selections, all buffers, all moments of all schedules together with any other calls on other buffers; for load_image all greyscale and indexed sprites", "why_tests_cant": "a test sees the buffer before and after a call, not at each of the moments in between", "anchors": ["src/loader/mod.rs: AsepriteFile::render_frame, AsepriteFile::combined_frame_image, AsepriteFile::load_image, grayscale_to_rgba, indexed_to_rgba"]}
{"id": "C107", "title": "Rendering with little memory", "statement": "Suppose the allocator can hand out only so many bytes, and a vector it cannot provide ends the process. load_image runs out of memory exactly if the buffer is large enough for the image and the unpacked bytes of a compressed greyscale (two a pixel) or indexed (one a pixel) image do not fit into what is free; the buffer is then untouched. render_frame runs out of memory exactly if the buffer is large enough and some drawn cel alone needs more than is free (four bytes a pixel and what load_image needs for its image), all cels below it being drawn without failure; the buffer then holds the picture of the cels below the first such cel, and nothing of it. So a frame that can be rendered at all can be rendered with the memory its neediest drawn cel needs, however many cels there are. combined_frame_image runs out of memory exactly when rendering the visible layers does. A call that comes back, with a result, an error or a panic, gives the result it would give with unlimited memory and has given back all memory it took.", "quantifier": "all files that load, all frames, images, selections and buffers, all limits and all amounts already taken", "why_tests_cant": "a test runs with the memory of the machine it runs on; it neither sees what a limit would do nor every file, limit and point of failure", "anchors": ["src/loader/mod.rs: AsepriteFile::render_frame, AsepriteFile::load_image"]}
{"id": "C108", "title": "Merging any layers is nearly exact", "statement": "Where all cels are painted with mode Normal: look at a rendered pixel in front of any background. What is seen of each channel is within 2 (of 255) per cel of painting the cels exactly, one after the other, on what was seen of the pixel before, for every colour and alpha the pixel had. So layers that follow each other can be merged: render them onto a transparent canvas and put one cel with that picture, with mode Normal and full opacity, in their place; what is seen of the two results in front of any background then differs by at most 4 per cel on the pixel, plus 2.", "quantifier": "all files that load, all frames, selections, canvases (any alpha), pixels, channels, backgrounds, all choices of layers that follow each other and all sprites with the merged picture in their place", "why_tests_cant": "the number of combinations of colours, alphas, opacities and layers is unbounded, and the error could build up or be magnified where alpha is small", "anchors": ["src/loader/mod.rs: AsepriteFile::render_frame", "src/loader/blend.rs: normal"]}
{"id": "C109", "title": "Small changes stay small", "statement": "Take two pixels with the same alpha that differ by at most k in a colour channel, and paint the same number of cels on them, with the same modes, opacities and alphas, and colours that differ by at most e in the channel. The results have the same alpha. If the modes are Normal, Darken and Lighten, they differ by at most the larger of k and e, however many cels there are. With Multiply, Screen, Difference, Exclusion, Addition and Subtract each cel adds e, with Hard Light it adds 2 e, Overlay makes it twice as much plus e, and Soft Light makes it at most four times as much plus half of e, rounded up, or e if that is more. Rounding adds nothing. With each of these modes but Soft Light the limit is reached, and with Soft Light it is if k is 1 and e is 0, or k is 0 and e is 1. Color Dodge, Color Burn and Divide have no limit: they can turn a difference of 1 into one of 255.", "quantifier": "all pairs of files that load, frames, selections, canvases, pixels, channels and numbers k and e", "why_tests_cant": "rounding errors of several divisions per stroke could add up to more than the change in some of unboundedly many combinations of layers", "anchors": ["src/loader/mod.rs: AsepriteFile::render_frame", "src/loader/blend.rs: blend_mode_to_blend_fn, blender, blend_channel, normal, merge, blend8, mul8"]}
{"id": "C110", "title": "Sprites that were edited or put together by hand", "statement": "All fields of a loaded sprite are public. For every value of them, sensible or not: render_frame returns no error but TargetBufferTooSmall, exactly for a short buffer, and never touches what lies behind the canvas; with a frame number of the sprite it succeeds exactly if for every drawn cel the image exists, can be decoded (with a palette, if indexed) and has no more pixels than the cel, and the mode is known and blending does not fail; otherwise it panics. Every pixel then is composed of the drawn cels in their order, where a cel shows the pixels of its image row by row in its own width, and nothing where the image has ended. load_image succeeds exactly if the image exists and can be decoded, and reports a missing palette exactly for indexed sprites without one. In particular a loaded sprite may be edited: with layers changed, added or removed, cels removed, copied, moved, reordered or put on other layers or frames, and another canvas size, rendering works as described for loaded sprites. Switching the visible fields is rendering with the mask of these fields.", "quantifier": "all values of an AsepriteFile (all contents of all public fields), frame numbers, selections, buffers and edits", "why_tests_cant": "the values of the fields are unbounded and need not come from any file", "anchors": ["src/loader/mod.rs: AsepriteFile, FrameCel, Frame, Layer, AsepriteFile::render_frame, AsepriteFile::load_image"]}
{"id": "C111", "title": "Redrawing one cel", "statement": "Two files have the same canvas, palettes, layers and cels, except that the cel of one layer in one frame was changed in any way, added or removed. All other frames that do not show that cel by a link are rendered exactly as before. In the frames that show it only those pixels can be different on which its image lies, before or after the change. If the layer is not drawn, nothing is different in any frame. If the first file loads, the second one does exactly if the new cel lies on a layer of the sprite, shows an image (its own or a linked one), and is an image wherever other frames link to it.", "quantifier": "all pairs of files whose records differ in this way (whatever names, durations, tags, user data and other chunks they have), the layer, the frame, all frames, selections, buffers and decompressors", "why_tests_cant": "ranges over all files, all cels in them and all changes of a cel, with links to it from any other frames", "anchors": ["src/loader/mod.rs: AsepriteFile::load, AsepriteFile::render_frame", "src/binary/file.rs: parse_file"]}
{"id": "C112", "title": "Frames and chunks are read independently of each other", "statement": "Let two files differ in one frame record only (of whatever lengths), and let the first one be read. Then the second one is read exactly if the new frame record is accepted by itself, and the result differs in this frame only. The same holds for one chunk record within one frame, among the chunks the frame declares; a record behind them can be replaced by any other without effect. If the exchanged chunks are cels of one layer, only the pictures that C111 names can change; if they agree in everything that matters for pictures, the file loads as before and shows the same pictures. The same holds for a frame record exchanged for one with other such chunks put in or left out.", "quantifier": "all pairs of files that differ in one frame record or one chunk record, of any lengths and chunk types, wherever it is, all platforms", "why_tests_cant": "ranges over all files, all records in them and all replacements of any length", "anchors": ["src/binary/raw_file.rs: parse_raw_file", "src/binary/raw_frame.rs: parse_frames, parse_rawframe", "src/binary/chunk.rs: parse_chunk, parse_chunks", "src/loader/mod.rs: AsepriteFile::load"]}
{"id": "C113", "title": "Frames in another order", "statement": "A second file has the canvas, palettes and layers of a first one, and its frames are frames of the first one: in any order, any number of times, some left out. Links between frames are renumbered and stay within the file. If the first file loads, so does the second one, with the same size and layers, and every frame of it is rendered exactly as the frame it came from.", "quantifier": "all pairs of files and all maps from the frames of the second to those of the first, all frames, selections, buffers and decompressors", "why_tests_cant": "ranges over all files and all ways of rearranging their frames, with links among them", "anchors": ["src/loader/mod.rs: AsepriteFile::load, AsepriteFile::render_frame", "src/binary/file.rs: parse_file"]}
{"id": "C114", "title": "Layers that do not overlap may be put in any order", "statement": "The layers of a file are put in another order and the cels are renumbered accordingly. The new file loads if the old one does, with as many frames and the same size. If in a frame no two selected layers that have changed sides show something on a common pixel of the canvas, then rendering that frame succeeds for one file if and only if it does for the other, and leaves the same bytes in the buffer. More generally two frames that draw the same images, on each pixel in the same order, are rendered alike.", "quantifier": "all pairs of files without tilemap layers, all permutations of their layers, all frames, selections, buffers and decompressors", "why_tests_cant": "ranges over all files and all permutations of layers; where layers overlap depends on the positions and sizes of all cels", "anchors": ["src/loader/mod.rs: AsepriteFile::load, AsepriteFile::render_frame"]}
{"id": "C115", "title": "Blending computes with correctly rounded numbers, the same on every machine", "statement": "Soft Light and the modes on hue, saturation and luminosity compute with 64-bit floating point numbers. Each sum, difference, product, quotient, square root, conversion of an integer and constant is the number nearest to the exact value, the even one of two equally near ones, and infinite only from half a unit above the largest number; infinities, NaN and signed zeros follow the rules of IEEE 754. These rules determine every result: two arithmetics that follow them give the same numbers, except that of the minimum or maximum of two zeros either may be taken. With every arithmetic that follows them each blend mode gives the same colours, so rendering does not depend on the machine. Comparisons compare exact values, minimum and maximum are exact, and casts to integers leave out what is behind the point and stop at the limits of the type.", "quantifier": "all pairs of 64-bit floating point numbers, all integers, all fractions, all arithmetics that follow the standard", "why_tests_cant": "2^128 pairs of numbers per operation; tests sample a few, and a wrong rounding in rare halfway or subnormal cases is not seen by sampling", "anchors": ["src/loader/blend.rs: blend_soft_light, clip_color, set_luminocity, saturation, luminosity, set_saturation"]}
{"id": "C116", "title": "The public decompress function reads zlib streams and nothing else", "statement": "decompress(data, target) always returns and never changes the length of target. It returns Ok just when data begins with a zlib stream (RFC 1950, RFC 1951) whose content is not longer than target; then the content is at the beginning of target and the rest of target is as before. Otherwise it returns DecompressError. Bytes after the stream, a larger target and the previous bytes of target make no difference. Every sequence of bytes can be stored and read back with a target of exactly its size. A stream cut off anywhere, or with another checksum, is refused. load_image of a compressed image of an RGBA sprite is decompress into the first four bytes per pixel.", "quantifier": "all data, all targets, all zlib streams, all cuts, all decompressors that conform to the RFCs", "why_tests_cant": "streams and targets are unbounded; tests use the streams of one compressor", "anchors": ["src/loader/mod.rs: decompress, AsepriteFile::load_image"]}
{"id": "C117", "title": "What the compatibility switch for saturation changes", "statement": "ASEPRITE_SATURATION_BUG_COMPATIBLE chooses how the channels are sorted when a saturation is set; it is on. With it on, the blend functions are those that all the other properties are about. Turning it off would change no pixel and no panic of any mode other than hue and saturation. In hue it could only change pixels whose upper colour, in saturation only pixels whose lower colour, has red equal to green, not 0 and not more than blue, or green equal to blue, not 0 and less than red. For exactly these colours the colour with the new saturation differs. With the switch off that colour is SetSat of the W3C up to rounding errors for every pixel, the sort returns three different channels in ascending order, and hue and saturation keep greys grey.", "quantifier": "all pairs of pixels, opacities, blend modes, build profiles, both values of the switch", "why_tests_cant": "there are 2^72 combinations per mode; the branch with the switch off is not even compiled in", "anchors": ["src/loader/blend.rs: ASEPRITE_SATURATION_BUG_COMPATIBLE, static_sort3, static_sort3_orig, set_saturation, hsl_hue_baseline, hsl_saturation_baseline"]}
{"id": "C118", "title": "create_palette on its own: contract, what it depends on, updates", "statement": "create_palette can be called with any header and any frames, parsed or put together by hand. It never panics. It returns Missing if no frame has a palette chunk, IndexOutOfBounds if old-style chunks are used and one writes past the last entry, Empty if no colour is written, and no other error. Otherwise entry i of the 256 colours is the colour written last to index i, transparent black if there is none, with alpha 0 at the transparent index. Nothing of the header matters except the transparent index, and nothing of the frames except the palette chunks in use and their order. One more frame with a new-style chunk replaces exactly the colours of its range for which it has entries. The same frames once more change nothing.", "quantifier": "all headers, all lists of frames with any chunks, including palette chunks whose range and number of entries differ", "why_tests_cant": "the chunks are unbounded, and parsed files reach only some of them", "anchors": ["src/binary/palette.rs: create_palette, process_palette_chunks, process_old_palette_chunks, Palette"]}
{"id": "C119", "title": "The public parsers of parts can be called on their own and chained", "statement": "Every parse function of the binary module is public. Called on any slice, each of those that take a prefix (the scalars, strings, header, property values, every chunk but three, chunk, chunks, frame) behaves like a reader of a self-delimiting format: if it succeeds, the bytes it took give the same value whatever follows them, exactly what follows is handed back, and with any of those bytes missing at the end there is no value, so a caller can chain calls or fetch more bytes and try again. The parsers of the cel, cel extra and mask chunks, and parse_frames, take everything they are given. None of them panics on any input, except those that read user-data properties, which panic only by the size subtraction in builds with overflow checks or by running out of stack on an input of at least two bytes per level.", "quantifier": "all the public parse functions of the binary module, all inputs (slices of less than 2^63 bytes), everything that can follow and every shorter prefix, all parameters, both build profiles, any stack size", "why_tests_cant": "the inputs, what follows them and the places to cut are unbounded", "anchors": ["src/binary/scalars.rs: all functions", "src/binary/header.rs: parse_header", "src/binary/chunks/*.rs: all pub fn parse_*", "src/binary/chunk.rs: parse_chunk, parse_chunks", "src/binary/raw_frame.rs: parse_rawframe, parse_frames"]}
{"id": "C120", "title": "Incomplete input is told from malformed input", "statement": "Every answer of a public parser of a part, other than a recoverable 'unexpected end of input' error pointing into its input, is final: when more bytes follow, the value is the same and the additional bytes are handed back too, an error is the same error, a panic the same panic. So if some continuation of the bytes given is accepted, the answer on those bytes alone is the same value already or 'unexpected end': a caller that receives a file in pieces knows when to stop. For the three chunk parsers that take the rest of their input, for parse_frames and for parse_raw_file the same holds of refusals, and the beginning of something acceptable is accepted or answered by 'unexpected end'; likewise parse_file, up to the sorting of the contents. The converse does not hold: 'unexpected end' is also the answer for a record whose stated size is too small for its fields, whatever follows it.", "quantifier": "all the public parse functions of the binary module, all inputs and all their continuations, all parameters, both build profiles, any stack size", "why_tests_cant": "the inputs, their continuations and the places to cut are unbounded", "anchors": ["src/binary/scalars.rs: all functions", "src/binary/header.rs: parse_header", "src/binary/chunks/*.rs: all pub fn parse_*", "src/binary/chunk.rs: parse_chunk, parse_chunks", "src/binary/raw_frame.rs: parse_rawframe, parse_frames", "src/binary/raw_file.rs: parse_raw_file", "src/binary/file.rs: parse_file"]}
{"id": "C121", "title": "What was read can be written and read again", "statement": "Read any file with parse_raw_file and write what was read, as the format document lays it out: parse_raw_file reads the same header and frames from the new file, which is never longer than the first, whatever reserved bytes, unknown flag bits, padding or old-style frame header the first one had. AsepriteFile::load answers the same for both files: the same sprite or the same error or panic. The new file is a normal form: two files hold the same exactly if the same bytes are written for them. Exceptions: a code the parser replaced by zero in the first reading (an unknown blend mode, for instance) changes to the code 0; property maps that are nested or were read with an error; and the two flip masks of a tilemap, which parse_raw_file exchanges each time, so that after two rounds the first result is back (this does not affect load).", "quantifier": "all byte strings that parse_raw_file accepts, both build profiles, any stack size", "why_tests_cant": "files, and the ways in which two files can say the same, are unbounded", "anchors": ["src/binary/raw_file.rs: parse_raw_file", "src/binary/file.rs: parse_file", "src/binary/raw_frame.rs: parse_frames, parse_rawframe", "src/binary/chunk.rs: parse_chunk", "src/binary/chunks/*.rs", "src/loader/mod.rs: AsepriteFile::load"]}
{"id": "C122", "title": "Deleting layers is deselecting them", "statement": "From a file some layers are deleted with their cels, and the cels of the layers above are renumbered (only normal layers and groups occur). If the first file loads, so does the second one, with as many frames, the same size and the kept layers. Rendering a frame of the second file with any selection gives exactly what rendering that frame of the first file gives with a selection of the same layers: the same result, error or panic and the same bytes. In particular All gives what the mask of the kept layers gives, and if only groups and invisible layers were deleted, Visible gives the same picture. Read backwards: layers can be added anywhere without changing the pictures of the others.", "quantifier": "all pairs of loadable files of which the second is the first without some layers, all frames, all selections, all buffers and inflaters, both build profiles", "why_tests_cant": "the files and the sets of deleted layers are unbounded", "anchors": ["src/loader/mod.rs: AsepriteFile::load, render_frame, LayerSelection", "src/binary/file.rs: parse_file"]}
{"id": "C123", "title": "What changes from one frame to another", "statement": "Render two frames of a file, on equal canvases and with the same selection of layers. Every pixel that differs between the two pictures lies on the image of a selected layer that shows something else in the one frame than in the other (another position or image; a link shows what it links to): on the image it shows in the first frame or on the one it shows in the second. So a player has to refresh only these rectangles. If all selected layers show the same, both frames give the same result and the same bytes.", "quantifier": "all files that load and have no tilemap layers, all pairs of frames, all selections, canvases and inflaters, both build profiles", "why_tests_cant": "the files, frames and canvases are unbounded", "anchors": ["src/loader/mod.rs: AsepriteFile::load, render_frame"]}
{"id": "C124", "title": "Rendering by hand gives the same picture", "statement": "A program that does not call render_frame but asks for the images of a frame's cels with load_image, on zeroed buffers of the sizes the cels tell, and draws them itself at the positions the cels tell, in their order, leaving out cels of groups and of layers not selected, with the blend modes and opacities of the layers, gets exactly the picture render_frame makes. And render_frame succeeds exactly if load_image does for all these cels, their blend modes are known ones, and blending fails at no pixel of the canvas.", "quantifier": "all files that load, all their frames, all selections, all canvases that are long enough, all inflaters, both build profiles", "why_tests_cant": "the files, selections and canvases are unbounded, and two ways through the API have to agree on all of them", "anchors": ["src/loader/mod.rs: load_image, render_frame, frames, layers"]}
{"id": "C125", "title": "Sprites with tilemap layers are sprites without them", "statement": "For every file that loads, take out the layer chunks that are neither normal layers nor groups (tilemap layers and layers of unknown types) and the cels whose layer number is not below the number of the layers that are left, and do not renumber the other cels. The new file loads too; the two sprites have the same size, as many frames and as many layers, and every frame is rendered alike, with every selection and on every buffer. If the other layers are all above the normal layers and groups, they do no harm: the frame is rendered from the images on its own normal layers.", "quantifier": "all files that load, all their frames (and indices beyond), all selections, buffers, inflaters, both build profiles", "why_tests_cant": "the files and the places of the other layers are unbounded; the numbers of the layers shift in the loaded sprite while those of the cels do not", "anchors": ["src/loader/mod.rs: load, render_frame"]}
{"id": "C126", "title": "The program in the README", "statement": "The program in the README (load, size, a zeroed buffer of width * height * 4 bytes, render_frame 0 with the visible layers) stops with an error exactly if load does, with that error; the second question mark never returns. If it does not panic, the buffer holds the picture of the first frame, pixel by pixel, over transparent black. In a release build it succeeds exactly if the file loads and every cel of the first frame on a visible layer has an image that can be decoded and a known blend mode. Two builds on which it does not panic give the same bytes.", "quantifier": "all byte strings given as files, all inflaters, both build profiles and all stack sizes", "why_tests_cant": "the input is any file; the program composes parsing, loading, buffer sizes and rendering", "anchors": ["README.md: Usage", "src/loader/mod.rs: load, size, render_frame"]}
{"id": "C127", "title": "The error of a malformed file tells which field is wrong", "statement": "A chunk is rejected exactly when its size is missing, below 4 or larger than the input, when its type is missing, or when some field of its body is wrong; and the error is that of the first field that is wrong, in file order. A field that is not complete gives `Eof` pointing at the start of that field (for a text that is too short, at the start of the text after its length), a STRING that is not UTF-8 gives the UTF-8 error with the length of the valid part, an inverted tag range and bad palette indices give their failures. The same holds for the error that a user data chunk holds in place of malformed properties, however deeply the properties are nested. So parse_file fails exactly if something is wrong with the header, with a frame (its size, its magic number, a field of its header, one of its chunks), with the palette or with the layer number of a cel, and the error is that of the first thing that is wrong in file order (except that a recoverable error in a frame after the first is replaced by `Eof` at the start of that frame).", "quantifier": "every byte string, every chunk type, every build, every nesting depth", "why_tests_cant": "a test shows the error of one malformed chunk; the claim is an equivalence between errors and problems over all bytes and all fourteen chunk types", "anchors": ["src/binary/chunk.rs: parse_chunk", "src/binary/chunks/*.rs: the parsers of all chunks", "src/binary/chunks/user_data.rs: parse_value, parse_vector, parse_properties_map, parse_property", "src/binary/scalars.rs", "src/binary/errors.rs: ParseError", "src/binary/file.rs: parse_file"]}
{"id": "C128", "title": "Chunks of different kinds may come in any order", "statement": "Call a chunk with the user data chunks directly following it a block. Two neighbouring blocks of a frame can be exchanged if one is a layer, the other a tags chunk, a slice, a palette, a cel, or a cel of another layer, and so on, or if one of them is of a kind that does not appear in the parsed file; and blocks of layers, tags and slices can be moved to other frames, as long as the order of each kind stays. parse_file then succeeds for both files or for none, with the same result, and so does load, with the same sprite; if parse_file succeeds, load gives the same for both, errors included. Layers, for instance, may be declared after the cels that use them. (If parse_file fails for both, the errors may differ.)", "quantifier": "all pairs of files that have the same blocks of each kind in the same order (cels: of each layer in each frame), all frames, all interleavings, every build", "why_tests_cant": "there are unboundedly many interleavings; files written by one program use one of them", "anchors": ["src/binary/file.rs: parse_file, next_user_data", "src/binary/palette.rs: create_palette", "src/loader/mod.rs: AsepriteFile::load"]}
{"id": "C129", "title": "Exactly these sprites can be loaded", "statement": "What users may rely on about a loaded sprite is known completely. Every sprite load returns has: a palette exactly if its colour depth is Indexed, of 256 colours with the transparent index transparent, and an Unknown depth only for codes other than 8, 16 and 32; only normal layers and groups, with names below 65536 bytes and readable blend modes; tags with a non-empty range, a readable direction, and a repeat count that is absent or positive; at least one frame; frame origins (0, 0); in each frame at most one cel per layer, ordered by layer, on layers below 65536, with the size of its image; and images numbered by frame and layer of the cel that stores them, each shown by that cel, every cel showing an image stored on its own layer in its own frame or in another frame below 65536. Conversely every combination of size, colour depth, transparent index, palette, layers, frames, tags and images with these properties is what load returns for some file, unless it is too large for one. So no further invariant holds.", "quantifier": "all loaded sprites; conversely all sizes, colour depths, palettes, lists of layers, frames, cels, tags and images with these properties, every build", "why_tests_cant": "tests can show that an invariant fails, not that it holds of every file, nor that a list of invariants is complete", "anchors": ["src/loader/mod.rs: AsepriteFile::load, AsepriteFile::layers, AsepriteFile::frames, AsepriteFile::tags, AsepriteFile::size", "src/binary/file.rs: parse_file"]}
{"id": "C130", "title": "Exactly these errors can occur", "statement": "The errors a caller has to be prepared for are known exactly. parse_file returns: `Eof` pointing at some bytes; `Tag` pointing at the contents of a frame without its magic number or at one of three places of a header; a UTF-8 error at a position below 65535, of unknown length or with 1, 2 or 3 wrong bytes; InvalidFrameSize with 0 to 3; InvalidFrameRange with any inverted range; any of the six palette errors; LayerIndexOutOfBounds; and nothing else: DwordToUsize, InvalidChunkSize and InvalidPropertyType are never returned. load adds a bad link at any frame and layer, and a cel without an image. Conversely each of these errors, with any bytes and numbers that fit this description, is the answer to some input, in every build. load_image can return every error but MissingPalette; rendering and combined_frame_image none but TargetBufferTooSmall.", "quantifier": "all inputs; conversely all errors of the listed form (pointing at less than 4 GiB), every build and stack size", "why_tests_cant": "that an error is never returned is a statement about all inputs; that every one of infinitely many errors is possible needs a construction", "anchors": ["src/binary/errors.rs: ParseError", "src/binary/palette.rs: PaletteError", "src/binary/file.rs: parse_file", "src/loader/mod.rs: AsepriteFile::load, AsepriteFile::load_image, AsepriteFile::render_frame, AsepriteFile::combined_frame_image, LoadSpriteError, LoadImageError"]}
{"id": "C131", "title": "Exactly these panics can occur", "statement": "The panics a caller has to be prepared for are known exactly. parse_file and load: an index out of bounds, an arithmetic overflow in debug builds only, and a stack overflow; each is the answer to some input in every build (the stack overflow for stacks of at most 700000000 calls) and nothing else is. load_image for an image that exists: only the length mismatch of copy_from_slice; for one that does not exist: only an index out of bounds. render_frame for a frame that exists: a length mismatch, an unwrap on an error, the explicit panic for unknown blend modes, and in debug builds only a failed debug assertion; with every layer selection that can take a layer each of them happens for some sprite, and with a mask without a true among the first 65536 entries none happens. For a frame that does not exist: an index out of bounds. combined_frame_image: the same.", "quantifier": "all inputs, sprites, image and frame numbers, selections and buffers; conversely every listed panic, every build and selection", "why_tests_cant": "that a kind of panic never happens is a statement about all inputs; that it can happen in every build and with every selection is one about all builds and selections", "anchors": ["src/binary/file.rs: parse_file", "src/loader/mod.rs: AsepriteFile::load, AsepriteFile::load_image, AsepriteFile::render_frame, AsepriteFile::combined_frame_image, LayerSelection", "src/loader/blend.rs: blend_mode_to_blend_fn"]}
{"id": "C132", "title": "Exactly these files can be parsed", "statement": "What parse_file can return is known exactly. In every parsed file the header's colour depth is never an unknown 8, 16 or 32; an indexed file has a palette of 256 colours whose transparent entry has alpha 0 and every other file has none; there is at least one frame, every frame has one slot per layer, and a cel in slot i belongs to layer i; every layer has only the seven known flags, a tileset index exactly if it is a tilemap layer and a name of less than 64 KiB; no tag has an inverted range; every slice key has nine-patch and pivot data exactly if the slice's flags say so; a cel of unknown type has a type other than 1 to 4; all user data was read from a chunk. Conversely every such file that is not too large for the 4 GiB frames of the format is the answer to some input, with whatever user data on the sprite, its layers, tags, slices and cels. User data without properties is only restricted by the length of its text.", "quantifier": "all inputs of parse_file; conversely all File values that satisfy the list and fit in frames of 4 GiB", "why_tests_cant": "that nothing else can be returned is a statement about all inputs, that everything else can be is one about all files", "anchors": ["src/binary/file.rs: parse_file, File", "src/binary/raw_file.rs: parse_raw_file", "src/binary/chunks/layer.rs: parse_layer_chunk", "src/binary/chunks/tags.rs: parse_tags_chunk", "src/binary/chunks/slice.rs: parse_slice_chunk", "src/binary/chunks/cel.rs: parse_cel_chunk", "src/binary/chunks/user_data.rs: parse_user_data_chunk"]}
{"id": "C133", "title": "Exactly these properties can be read", "statement": "What a user data chunk can hold is known exactly. Its text has less than 64 KiB. Instead of properties it holds an error exactly of these kinds: the end of the data, pointing at less than 65535 bytes; a text that is not UTF-8 (with the positions and lengths of C130); a type code that is 0 or more than 0x13. Properties can be any list of maps, with any unused bytes after them: any keys, names and strings of less than 64 KiB, vectors and maps of less than 2^32 elements, nested as deep as the stack allows, in any combination, except that the MixedVector value is never returned (mixed vectors are returned as Vector). They are limited only by the 4 GiB of a chunk. Every such map has an encoding that is read back whatever follows it, and however it is stored it takes the same number of bytes. All user data in a parsed file is of this kind.", "quantifier": "all property values, vectors and maps of any nesting, all stacks; all user data, for stacks of at least 3 calls; all inputs of parse_file", "why_tests_cant": "that every tree of values, of every depth and size, can be read is a statement about infinitely many of them; that nothing else can be read is one about all inputs", "anchors": ["src/binary/chunks/user_data.rs: parse_user_data_chunk, parse_properties_maps, parse_properties_map, parse_property, parse_value, parse_vector, Value, Vector, PropertiesMap", "src/binary/file.rs: parse_file"]}
{"id": "C134", "title": "One test run tells whether a sprite can be drawn", "statement": "If a frame was rendered with some layers selected, then in a release build it can be rendered with every selection that takes none but these layers, onto every buffer that holds the canvas, whatever it contains. It can be rendered with a selection iff it can be rendered with each of the selected layers alone, and iff load_image succeeds for the image of each of its cels on a selected layer and these layers have known blend modes. If combined_frame_image succeeded once for a frame it succeeds onto every such buffer, with the same hash. So a sprite whose frames were all rendered once with LayerSelection::All, in whatever build, never fails in a release build. In debug builds all this holds if no selected layer has the mode hue, saturation, color or luminosity; with such layers the only panic that can still come up is that of a debug assertion, and it can come up.", "quantifier": "all files that load, frames, selections, inflaters, buffers, build profiles", "why_tests_cant": "A program that checks its sprites when they are built relies on one successful rendering standing for all others: for all selections and all contents of the buffer", "anchors": ["src/loader/mod.rs: AsepriteFile::render_frame, AsepriteFile::load_image, LayerSelection", "src/loader/blend.rs: blend_mode_to_blend_fn"]}
{"id": "C135", "title": "What a debug build can draw", "statement": "A debug build draws a frame, and then leaves the same bytes as a release build, iff a release build can draw it and the assertions pass at every pixel of the canvas: a colour painted with hue, saturation, color or luminosity meets a fully transparent pixel, or has an alpha of at most 1 and is computed without saturation or for a luminosity of at most 1 of 255. The same holds of combined_frame_image with the visible layers, and the hashes are the same. So onto a canvas that is not transparent no debug build draws a frame in which such a layer shows a colour of alpha 2 or more.", "quantifier": "all files that load, frames, selections, inflaters, buffers, stack sizes", "why_tests_cant": "Whether a sprite that was tested in a release build also renders in a debug build depends on the colours of every pixel, below and above, and on what was in the buffer", "anchors": ["src/loader/mod.rs: AsepriteFile::render_frame", "src/loader/blend.rs: hsl_hue, hsl_saturation, hsl_color, hsl_luminosity, From<&[f64]> for Color, From<&[i32]> for Color"]}
{"id": "C136", "title": "What may follow a file", "statement": "Bytes after a complete file are accepted iff they are zero or more frame records; these are then added to the frames, and the header stays as it is. Other bytes, for example padding, that do not have the magic number of frames after four bytes make parse_file and load fail however they go on: if their first four bytes, taken for a size, are less than 4 the error says so, otherwise it is \"end of input expected\" and points at the place where the file ends. So two files one after the other are never read as one file, and the error points at the second one if that states a size of at least 4 bytes.", "quantifier": "all files that parse_raw_file accepts, and all bytes after them", "why_tests_cant": "What follows a file can be anything, and it must not be read, not even in part, unless it is made of frames", "anchors": ["src/binary/raw_file.rs: parse_raw_file", "src/binary/raw_frame.rs: parse_frames, parse_rawframe", "src/binary/file.rs: parse_file", "src/loader/mod.rs: AsepriteFile::load"]}
{"id": "C137", "title": "Sprites drawn on top of each other", "statement": "Rendering a frame of one sprite and then a frame of another one into the same buffer does exactly what rendering one frame does that draws the images of the first and then those of the second. So a sprite that has the layers of a first sprite and above them those of a second one, with what their frames show on them, is rendered by rendering the first and then the second into one buffer (for example a figure and its clothes), with the visible layers or with all of them; results, failures and bytes are the same.", "quantifier": "all triples of files without tilemap layers of the same size and colour depth (and palettes, if indexed) that load, all frames, selections that draw these images, decompressors, buffers and build profiles", "why_tests_cant": "Compositing must not depend on the division into sprites, for every picture, blend mode, number of layers and previous buffer contents, including failures", "anchors": ["src/loader/mod.rs: AsepriteFile::render_frame, AsepriteFile::load, LayerSelection"]}
{"id": "C138", "title": "Frames of any sprites fit into one file", "statement": "Take frames of any loaded sprites that have the same size, colour depth and palette, in any number and order, the same one several times if wanted. If together they have at most 65536 layers and need less than about 4 GiB, there is a file with one frame whose layers are the layers of all the sprites, the first one's at the bottom, and rendering that frame does exactly what rendering the given frames one after the other into the same buffer does, up to the first failure: with the visible layers, with all layers, and with any selection of layers from each of the sprites and the selection of the same layers in the file. Result, failure and bytes are the same for every buffer.", "quantifier": "all non-empty lists of frames of sprites that load (of any length, within the size limit), all layer selections, decompressors, buffers and build profiles", "why_tests_cant": "Existence of a file for every list of frames of every sprite, and equality of the pictures for every buffer and selection, including failing ones", "anchors": ["src/loader/mod.rs: AsepriteFile::load, AsepriteFile::render_frame, AsepriteFile::select_layers, LayerSelection"]}
{"id": "C139", "title": "Every layer in a file of its own", "statement": "For every frame of every loaded sprite (with at least one layer, and of less than about 4 GiB) there are files with one frame and one layer each, one for every layer of the sprite, with that layer's name, opacity, blend mode, visibility and type and the sprite's size, colour depth and palette, such that rendering them one after the other into the same buffer, the lowest layer first, does exactly what rendering the frame does, up to the first failure: with the visible layers, with all layers, and with any mask, of which every file gets its own entry. So layers may be exported and drawn separately.", "quantifier": "all files that load, all frames, all layer selections, decompressors, buffers and build profiles", "why_tests_cant": "Existence of the files for every sprite, and equality of result and bytes for every buffer and selection, including failing ones", "anchors": ["src/loader/mod.rs: AsepriteFile::load, AsepriteFile::render_frame, LayerSelection"]}
{"id": "C140", "title": "Two animations one after the other", "statement": "For any two loaded sprites of the same size, colour depth and palette, all of whose cels are on layers, there is a file with the layers of both and the images of both whose frames are those of the first sprite and then those of the second one, with their durations and linked cels, and whose tags are those of both, the ranges of the second ones moved to its frames; provided that there are at most 65536 layers and 65536 frames, the moved ranges fit, and no frame needs 4 GiB. Each of its frames is rendered exactly as the frame of the first or second sprite is, failures included: with the visible layers, with all layers, and with a mask put together from a mask for each sprite.", "quantifier": "all pairs of files that load and fit together, all frames, selections, decompressors, buffers and build profiles; longer lists of animations by repetition", "why_tests_cant": "Existence of the joined file for every two sprites (renumbered layers, images, links and tags) and equality of all its pictures for every buffer", "anchors": ["src/loader/mod.rs: AsepriteFile::load, AsepriteFile::render_frame, AsepriteFile::frames, AsepriteFile::tags, AsepriteFile::layers, LayerSelection"]}
{"id": "C141", "title": "Any script of frames can be stored", "statement": "Take any loaded sprites of the same size, colour depth and palette and a script that says, for each frame of an animation, how long it is shown and which frame of each sprite is shown in it, if any. If the sprites have at most 65536 layers and no frame needs 4 GiB, there is a file whose layers are the layers of all the sprites and whose frames have these durations, and rendering a frame of it into a large enough buffer does exactly what rendering the frames the script names, one after the other, into the same buffer does, up to the first failure: with the visible layers, with all layers, and with any selection of layers from each of the sprites. So any frames of one sprite, in any order and number and with any durations, can be stored as an animation with the same layers and pictures, for every buffer and selection.", "quantifier": "all non-empty lists of sprites that load, all non-empty scripts (of any length) for them within the size limit, all selections, decompressors, buffers and build profiles", "why_tests_cant": "Existence of a file for every script and every list of sprites, and equality of the pictures of all its frames for every buffer and selection, including failing ones", "anchors": ["src/loader/mod.rs: AsepriteFile::load, AsepriteFile::render_frame, AsepriteFile::frames, AsepriteFile::layers, LayerSelection"]}
{"id": "C142", "title": "Any part of the canvas as a file", "statement": "Every rectangle of the canvas of a loaded sprite, also one that reaches beyond its edges, can be a file of its own with the same layers, frames, durations, tags and images: there is a file that is loaded as the sprite with that canvas and the cels moved accordingly, and each of its frames shows what the frame of the sprite shows there, for cels that reach over the edges too; provided that the moved positions are 16 bit numbers and no frame needs 4 GiB. So a sprite can be cut into tiles of any size: every pixel of the canvas is shown by one of the tiles with the same colour, for every frame and selection, if the buffers had the same colour there before; and, unless HSL modes in debug builds are involved, a tile is rendered without a failure iff the sprite is.", "quantifier": "all files that load, rectangles and tile sizes within these limits, frames, selections, decompressors and buffers, both build profiles", "why_tests_cant": "Existence of a file for every sprite and every rectangle, and equality of all pixels of all frames for every buffer and selection", "anchors": ["src/loader/mod.rs: AsepriteFile::load, AsepriteFile::render_frame, AsepriteFile::size, AsepriteFile::frames, AsepriteFile::layers"]}
{"id": "C143", "title": "Compression and palettes are never needed", "statement": "For every loaded sprite for whose images load_image succeeds there is a file in RGBA colours, without a palette and with no compressed image, that is loaded as the same sprite (size, layers, frames, cels, tags) with images that hold the bytes load_image gives, if no frame of it needs 4 GiB. Each of its frames is rendered exactly as before, with every selection, onto every buffer, failures included, in every build and whatever the decompressor does; combined_frame_image gives the same picture and hash. load_image gives the same for its images, for every buffer, where the decoded image did not depend on what the buffer held before.", "quantifier": "all files that load and whose images can be decoded, all decompressors, frames, selections, buffers and build profiles", "why_tests_cant": "Existence of a file for every sprite, and equality of all rendered bytes for every frame, buffer and selection", "anchors": ["src/loader/mod.rs: AsepriteFile::load, AsepriteFile::load_image, AsepriteFile::render_frame, AsepriteFile::combined_frame_image"]}
{"id": "C144", "title": "Every sprite can be stored flipped, turned and enlarged", "statement": "For every loaded sprite in a known colour mode and each of these changes (left and right exchanged, top and bottom exchanged, rows and columns exchanged, every pixel enlarged to n by n pixels) there is a file, if its sizes and positions are 16 bit numbers and no frame needs 4 GiB, that is loaded as the changed sprite: the changed canvas, the same layers, tags and durations, every cel where the change takes it, every image changed. Each frame of it, rendered with any selection, shows the changed picture of the frame of the first sprite, if the buffers were related in this way before; and if the frame of the first one can be rendered so can that of the second one, onto every buffer that holds its canvas, unless HSL modes in debug builds are involved. The changed file has no compressed images, and its frames are rendered in this way whatever the decompressor does.", "quantifier": "all files that load in a known colour mode, all changes and enlargements within these limits, frames, selections, decompressors and buffers, both build profiles; rotations by repetition", "why_tests_cant": "Existence of a file for every sprite and change, and a relation between all pixels of all frames for every buffer and selection", "anchors": ["src/loader/mod.rs: AsepriteFile::load, AsepriteFile::render_frame, AsepriteFile::load_image"]}
{"id": "C145", "title": "All frames of a sprite can be put into one sheet", "statement": "For every loaded sprite none of whose cels reaches over the left or right edge of the canvas there is, if the sheet is narrower than 2^15 pixels, has at most 2^16 layers and is not near 4 GiB, a file with one frame, as high as the sprite and as wide as all its frames together, whose layers are those of the sprite, once for each frame. Rendered with any selection of layers, made in the same way for each copy of them, it shows in the columns from i times the width on what frame i of the sprite shows, if the buffers were the same there before; and if every frame of the sprite can be rendered so can the sheet, onto every buffer that holds it, unless HSL modes in debug builds are involved.", "quantifier": "all files that load, within these limits, all frames, pixels, decompressors and buffers, selections, both build profiles", "why_tests_cant": "Existence of a file for every sprite, and a relation between all pixels of all frames and the sheet for every buffer", "anchors": ["src/loader/mod.rs: AsepriteFile::load, AsepriteFile::render_frame"]}
{"id": "C146", "title": "Any pan over a sprite can be stored", "statement": "For every loaded sprite, every canvas size and every list of shots (how long, which frame, seen from which place of the canvas) there is, if the moved positions are 16 bit numbers and no frame needs 4 GiB, a file of that size with the same layers whose frames are these shots: each has its duration and shows, with every selection of layers, what the frame of the sprite shows there, if the buffers were the same there before; and, unless HSL modes in debug builds are involved, it is rendered without a failure iff the frame of the sprite is. So a sprite sheet with m rows of n pictures can be cut into an animation of n times m frames, which shows them row by row. More generally any frames of sprites with the same layers, size, colour depth and palette can be the frames of one file with these layers, and are rendered exactly as before.", "quantifier": "all files that load, lists of shots and canvas sizes within these limits, frames, selections, decompressors and buffers, both build profiles; for the last claim all non-empty lists of frames of such sprites", "why_tests_cant": "Existence of a file for every sprite and list of shots, and a relation between all pixels of all frames for every buffer and selection", "anchors": ["src/loader/mod.rs: AsepriteFile::load, AsepriteFile::render_frame"]}
{"id": "C147", "title": "Nothing beyond the canvas is needed", "statement": "For every loaded sprite in a known colour mode there is, if no frame of it needs 4 GiB, a file of the same size with the same layers, durations and tags and with cels on the same layers, in which no cel reaches over an edge of the canvas. Each of its frames, rendered with any selection of layers and whatever the decompressor does, shows the same picture as the frame of the first sprite, if the canvases were the same before; and if the frame of the first one can be rendered so can that of the second one, onto every buffer that holds the canvas, unless HSL modes in debug builds are involved. So all frames of such a sprite, each cut off at the edges of its canvas, can be put into one sheet as in C145 without the condition there on the edges (unless HSL modes in debug builds are involved).", "quantifier": "all files that load in a known colour mode, all positions and sizes of cels, frames, selections, decompressors and buffers, both build profiles", "why_tests_cant": "Existence of a file for every sprite, and equality of all pixels of all frames for every buffer and selection", "anchors": ["src/loader/mod.rs: AsepriteFile::load, AsepriteFile::render_frame, AsepriteFile::load_image"]}
{"id": "C148", "title": "Every selection of layers can be made the default", "statement": "For every loaded sprite and every selection of layers there is, if no frame of it needs 4 GiB, a file that is loaded as the same sprite with exactly the selected layers marked visible. Rendering its visible layers gives exactly what rendering the selected layers of the first sprite gives, onto every buffer, failures included; so combined_frame_image, which has no selection, shows them, with the hash it gives for the frame of the first sprite. Rendered with all layers or with a mask it is as before.", "quantifier": "all files that load, all selections, frames, buffers, decompressors and hash functions, both build profiles", "why_tests_cant": "Existence of a file for every sprite and selection, and equality of all renderings of it", "anchors": ["src/loader/mod.rs: AsepriteFile::load, AsepriteFile::render_frame, AsepriteFile::combined_frame_image, LayerSelection"]}
{"id": "C149", "title": "Names, durations and tags are free", "statement": "For every loaded sprite, names for its layers, durations for its frames and tags there is, if every name fits its 16 bit length, every tag can be stored and no frame needs 4 GiB, a file that is loaded as the same sprite with these names, durations and tags. Its images are loaded in the same way, and each frame is rendered with each selection exactly as before, onto every buffer, failures included, and with the same hash.", "quantifier": "all files that load, all names, durations and tags that fit, all frames, images, selections, buffers, decompressors and hash functions, both build profiles", "why_tests_cant": "Existence of a file for every sprite and every choice of labels, and equality of all renderings of it", "anchors": ["src/loader/mod.rs: AsepriteFile::load, AsepriteFile::render_frame, AsepriteFile::combined_frame_image, AsepriteFile::load_image"]}
{"id": "C150", "title": "Groups and linked cels are never needed", "statement": "For every loaded sprite of which no frame needs 4 GiB there is a file with the same size, colour mode, palette, tags and durations in which all layers are ordinary ones, and otherwise as before. Its cels are, in each frame, those of the first sprite that are on a layer and not on a group, with the same places and images, and no two cels in it share an image. Each frame is rendered with each selection exactly as the frame of the first sprite, onto every buffer, failures included.", "quantifier": "all files that load, all frames, selections, buffers and decompressors, both build profiles", "why_tests_cant": "Existence of a file for every sprite, and equality of all renderings of it", "anchors": ["src/loader/mod.rs: AsepriteFile::load, AsepriteFile::render_frame"]}
{"id": "C151", "title": "A layer can be inserted anywhere", "statement": "For every loaded sprite, every place among or after its layers and every layer that can be stored there is, if all numbers of layers of cels still fit 16 bits and no frame needs 4 GiB, a file that is loaded as the sprite with this layer inserted there, the cels moved up with their layers and nothing else changed. The images are loaded as before, and since the new layer is empty each frame is rendered as before, onto every buffer, failures included: with the visible layers, with all layers, and with a mask to which any value is added at that place.", "quantifier": "all files that load, all places, layers, frames, masks, buffers and decompressors, both build profiles", "why_tests_cant": "Existence of a file for every sprite, place and layer, and equality of all renderings of it", "anchors": ["src/loader/mod.rs: AsepriteFile::load, AsepriteFile::load_image, AsepriteFile::render_frame, LayerSelection"]}
{"id": "C152", "title": "Any pixels can be stored", "statement": "For every loaded sprite and any bytes for its images, four for each pixel, there is, if no frame needs 4 GiB, a file that is loaded as the same sprite (size, layers, frames, tags) in RGBA colours with these images. load_image gives exactly these bytes, into every buffer that is large enough, with the rest of the buffer untouched and whatever the decompressor does. Each frame can be rendered with each selection of layers with known blend modes, onto every buffer that holds the canvas (without HSL modes in a debug build), whether or not the first sprite could be.", "quantifier": "all files that load, all pixels, images, frames, selections, buffers and decompressors, both build profiles", "why_tests_cant": "Existence of a file for every sprite and all pixels of its images, and success for every buffer and selection", "anchors": ["src/loader/mod.rs: AsepriteFile::load, AsepriteFile::load_image, AsepriteFile::render_frame"]}
{"id": "C153", "title": "One simple form is enough for all sprites", "statement": "For every loaded sprite in a known colour mode there is, if that is not too large, a file in plain form: RGBA without a palette, no image compressed, no groups, every cel on a layer, inside the canvas and with an image of its own. It has the same size, tags and durations, and layers that differ at most in being groups. Each of its frames, rendered with any selection of layers and whatever the decompressor does, shows the same picture as the frame of the first sprite, if the canvases were the same before; and if the frame of the first one can be rendered so can that of the second one, onto every buffer that holds the canvas, unless HSL modes in debug builds are involved.", "quantifier": "all files that load in a known colour mode, all frames, selections, decompressors and buffers, both build profiles", "why_tests_cant": "Existence of a file for every sprite, and equality of all pixels of all frames for every buffer and selection", "anchors": ["src/loader/mod.rs: AsepriteFile::load, AsepriteFile::render_frame, AsepriteFile::load_image"]}
{"id": "C154", "title": "An empty layer can be removed", "statement": "For every loaded sprite and every layer of it on which no frame has a cel there is, if no frame needs 4 GiB, a file that is loaded as the sprite without this layer, the cels moved down with their layers and nothing else changed. The images are loaded as before, and each frame is rendered as before, onto every buffer, failures included: with the visible layers, with all layers, and with a mask from which the value of that layer is removed.", "quantifier": "all files that load, all layers without cels, frames, masks, buffers and decompressors, both build profiles", "why_tests_cant": "Existence of a file for every sprite and empty layer, and equality of all renderings of it", "anchors": ["src/loader/mod.rs: AsepriteFile::load, AsepriteFile::load_image, AsepriteFile::render_frame, LayerSelection"]}
