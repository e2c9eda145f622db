import Verif.Tests.Files
import Verif.Model.Inflate

/-!
# The unit tests of the crate, run on the model

These are tests, not properties: they are evidence that the definitions in `Verif/Model` describe the crate.  Each one
states what a `#[test]` function of the crate asserts, and the kernel evaluates the model on the sample file.  (Rendering
whole sample files is too slow in the kernel; all of them were rendered successfully with the compiled model.)
-/

namespace Ase.Tests

/-- file.rs:138-144 `test_parse_file` -/
example : (match parseFile ⟨true, 100⟩ defaultFile with
    | .ok f => f.frames.length == 1 && f.frames.map (·.duration) == [100]
    | _ => false) = true := by decide +kernel

/-- file.rs:146-182 `test_palette` -/
example : (match parseFile ⟨true, 100⟩ indexed with
    | .ok f => f.header.colorDepth == .indexed &&
        (match f.palette with
        | some p => p.colors[27]? == some ⟨172, 50, 50, 255⟩ && p.colors[10]? == some ⟨106, 190, 48, 255⟩ &&
            p.colors[17]? == some ⟨91, 110, 225, 255⟩
        | none => false)
    | _ => false) = true := by decide +kernel

/-- file.rs:184-216 `test_user_data` -/
example : (match parseFile ⟨true, 100⟩ userData with
    | .ok f => (f.userData.bind (·.text)) == some "sprite_data" &&
        ((f.layers[0]?).bind (·.userData) |>.bind (·.text)) == some "layer_data" &&
        ((f.slices[0]?).bind (·.userData) |>.bind (·.text)) == some "slice_data" &&
        ((((f.frames[0]?).bind (·.cels[0]?)).join.bind (·.userData)).bind (·.text)) == some "cel_data" &&
        f.tags.map (fun t => (t.name, t.userData.bind (·.text))) ==
          [("Tag 1", some "tag_data_1"), ("Tag 2", some "tag_data_2")]
    | _ => false) = true := by decide +kernel

/-- color_depth.rs:54-59 `test_bpp` -/
example : ColorDepth.rgba.bpp = 32 ∧ ColorDepth.grayscale.bpp = 16 ∧ ColorDepth.indexed.bpp = 8 := by decide

/-- blend_mode.rs:43-57 `test_parse_blend_mode` -/
example : parseBlendMode [7, 0] = .ok ([], .colorBurn) ∧ parseBlendMode [0x12, 0] = .ok ([], .divide) ∧
    parseBlendMode [0x37, 0x13] = .ok ([], .unknown 0x1337) := by decide +kernel

/-- header.rs:104-128 `test_parse_header` -/
example : (match parseHeader defaultFile with
    | .ok (_, h) => h == ⟨573, 1, 32, 32, .rgba, 1, 100, 0, 32, 1, 1, 0, 0, 16, 16⟩
    | _ => false) = true := by decide +kernel

/-- layer.rs:86-97 `test_layers` -/
example : (match parseFile ⟨true, 100⟩ layers with
    | .ok f => f.frames.map (·.duration) == [100] && f.layers.map (·.name) == ["Layer 1", "Layer 2", "Layer 3"]
    | _ => false) = true := by decide +kernel

/-- tags.rs:81-92 `test_tags` -/
example : (match parseFile ⟨true, 100⟩ tags with
    | .ok f => f.frames.map (·.duration) == [100] && f.tags.map (·.name) == ["Tag 1", "Tag 2", "Tag 3"]
    | _ => false) = true := by decide +kernel

/-- The result of rendering frame `i` of a file on an empty canvas. -/
def render (b : Bytes) (i : Nat) (sel : AsepriteFile → LayerSelection) : Option Bytes :=
  match AsepriteFile.load ⟨true, 100⟩ b with
  | .ok f =>
    match f.renderFrame ⟨true, 100⟩ Zlib.inflate i (sel f) (List.replicate (f.size.1.toNat * f.size.2.toNat * 4) 0) with
    | (.ok (), t) => some t
    | _ => none
  | _ => none

/-- mod.rs:538-550 `test_visible_layers_empty_produces_blank` -/
example : (match render layers 0 fun f => f.selectLayersByName [] with
    | some t => t.all (· == 0)
    | none => false) = true := by decide +kernel

/-- As in mod.rs:490-513 `test_cel`: the images of a file can be decoded.  The sample is an indexed one. -/
example : (match AsepriteFile.load ⟨true, 100⟩ indexed with
    | .ok f => (List.range f.imageCount).all fun i =>
        match f.images[i]? with
        | some im => (f.loadImage Zlib.inflate i (List.replicate (im.width.toNat * im.height.toNat * 4) 0)).1 == .ok ()
        | none => false
    | _ => false) = true := by decide +kernel

end Ase.Tests
