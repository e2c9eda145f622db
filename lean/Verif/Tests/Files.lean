import Verif.Model.Core

/-!
# The sample files of the crate

The contents of `tests/*.aseprite`, which the unit tests of the crate read.  They were written by Aseprite.
-/

namespace Ase.Tests

/-- tests/default.aseprite -/
def defaultFile : Bytes :=
  [61, 2, 0, 0, 224, 165, 1, 0, 32, 0, 32, 0, 32, 0, 1, 0, 0, 0, 100, 0, 0, 0, 0, 0, 0, 0, 0, 0, 0, 0, 0, 0, 32,
   0, 1, 1, 0, 0, 0, 0, 16, 0, 16, 0, 0, 0, 0, 0, 0, 0, 0, 0, 0, 0, 0, 0, 0, 0, 0, 0, 0, 0, 0, 0, 0, 0, 0, 0, 0,
   0, 0, 0, 0, 0, 0, 0, 0, 0, 0, 0, 0, 0, 0, 0, 0, 0, 0, 0, 0, 0, 0, 0, 0, 0, 0, 0, 0, 0, 0, 0, 0, 0, 0, 0, 0, 0,
   0, 0, 0, 0, 0, 0, 0, 0, 0, 0, 0, 0, 0, 0, 0, 0, 0, 0, 0, 0, 0, 0, 189, 1, 0, 0, 250, 241, 5, 0, 100, 0, 0, 0,
   5, 0, 0, 0, 22, 0, 0, 0, 7, 32, 1, 0, 0, 0, 0, 0, 0, 0, 0, 0, 0, 0, 0, 0, 0, 0, 218, 0, 0, 0, 25, 32, 32, 0, 0,
   0, 0, 0, 0, 0, 31, 0, 0, 0, 0, 0, 0, 0, 0, 0, 0, 0, 0, 0, 0, 0, 0, 255, 0, 0, 34, 32, 52, 255, 0, 0, 69, 40,
   60, 255, 0, 0, 102, 57, 49, 255, 0, 0, 143, 86, 59, 255, 0, 0, 223, 113, 38, 255, 0, 0, 217, 160, 102, 255, 0,
   0, 238, 195, 154, 255, 0, 0, 251, 242, 54, 255, 0, 0, 153, 229, 80, 255, 0, 0, 106, 190, 48, 255, 0, 0, 55,
   148, 110, 255, 0, 0, 75, 105, 47, 255, 0, 0, 82, 75, 36, 255, 0, 0, 50, 60, 57, 255, 0, 0, 63, 63, 116, 255, 0,
   0, 48, 96, 130, 255, 0, 0, 91, 110, 225, 255, 0, 0, 99, 155, 255, 255, 0, 0, 95, 205, 228, 255, 0, 0, 203, 219,
   252, 255, 0, 0, 255, 255, 255, 255, 0, 0, 155, 173, 183, 255, 0, 0, 132, 126, 135, 255, 0, 0, 105, 106, 106,
   255, 0, 0, 89, 86, 82, 255, 0, 0, 118, 66, 138, 255, 0, 0, 172, 50, 50, 255, 0, 0, 217, 87, 99, 255, 0, 0, 215,
   123, 186, 255, 0, 0, 143, 151, 74, 255, 0, 0, 138, 111, 48, 255, 106, 0, 0, 0, 4, 0, 1, 0, 0, 32, 0, 0, 0, 34,
   32, 52, 69, 40, 60, 102, 57, 49, 143, 86, 59, 223, 113, 38, 217, 160, 102, 238, 195, 154, 251, 242, 54, 153,
   229, 80, 106, 190, 48, 55, 148, 110, 75, 105, 47, 82, 75, 36, 50, 60, 57, 63, 63, 116, 48, 96, 130, 91, 110,
   225, 99, 155, 255, 95, 205, 228, 203, 219, 252, 255, 255, 255, 155, 173, 183, 132, 126, 135, 105, 106, 106, 89,
   86, 82, 118, 66, 138, 172, 50, 50, 217, 87, 99, 215, 123, 186, 143, 151, 74, 138, 111, 48, 31, 0, 0, 0, 4, 32,
   3, 0, 0, 0, 0, 0, 0, 0, 0, 0, 0, 0, 255, 0, 0, 0, 7, 0, 76, 97, 121, 101, 114, 32, 49, 52, 0, 0, 0, 5, 32, 0,
   0, 0, 0, 0, 0, 255, 2, 0, 0, 0, 0, 0, 0, 0, 0, 32, 0, 32, 0, 120, 156, 237, 193, 1, 13, 0, 0, 0, 194, 160, 247,
   79, 109, 15, 7, 20, 0, 0, 0, 240, 110, 16, 0, 0, 1]

/-- tests/indexed.aseprite -/
def indexed : Bytes :=
  [73, 2, 0, 0, 224, 165, 1, 0, 32, 0, 32, 0, 8, 0, 1, 0, 0, 0, 100, 0, 0, 0, 0, 0, 0, 0, 0, 0, 0, 0, 0, 0, 32, 0,
   1, 1, 0, 0, 0, 0, 16, 0, 16, 0, 0, 0, 0, 0, 0, 0, 0, 0, 0, 0, 0, 0, 0, 0, 0, 0, 0, 0, 0, 0, 0, 0, 0, 0, 0, 0,
   0, 0, 0, 0, 0, 0, 0, 0, 0, 0, 0, 0, 0, 0, 0, 0, 0, 0, 0, 0, 0, 0, 0, 0, 0, 0, 0, 0, 0, 0, 0, 0, 0, 0, 0, 0, 0,
   0, 0, 0, 0, 0, 0, 0, 0, 0, 0, 0, 0, 0, 0, 0, 0, 0, 0, 0, 0, 0, 201, 1, 0, 0, 250, 241, 5, 0, 100, 0, 0, 0, 5,
   0, 0, 0, 22, 0, 0, 0, 7, 32, 1, 0, 0, 0, 0, 0, 0, 0, 0, 0, 0, 0, 0, 0, 0, 0, 218, 0, 0, 0, 25, 32, 32, 0, 0, 0,
   0, 0, 0, 0, 31, 0, 0, 0, 0, 0, 0, 0, 0, 0, 0, 0, 0, 0, 0, 0, 0, 255, 0, 0, 34, 32, 52, 255, 0, 0, 69, 40, 60,
   255, 0, 0, 102, 57, 49, 255, 0, 0, 143, 86, 59, 255, 0, 0, 223, 113, 38, 255, 0, 0, 217, 160, 102, 255, 0, 0,
   238, 195, 154, 255, 0, 0, 251, 242, 54, 255, 0, 0, 153, 229, 80, 255, 0, 0, 106, 190, 48, 255, 0, 0, 55, 148,
   110, 255, 0, 0, 75, 105, 47, 255, 0, 0, 82, 75, 36, 255, 0, 0, 50, 60, 57, 255, 0, 0, 63, 63, 116, 255, 0, 0,
   48, 96, 130, 255, 0, 0, 91, 110, 225, 255, 0, 0, 99, 155, 255, 255, 0, 0, 95, 205, 228, 255, 0, 0, 203, 219,
   252, 255, 0, 0, 255, 255, 255, 255, 0, 0, 155, 173, 183, 255, 0, 0, 132, 126, 135, 255, 0, 0, 105, 106, 106,
   255, 0, 0, 89, 86, 82, 255, 0, 0, 118, 66, 138, 255, 0, 0, 172, 50, 50, 255, 0, 0, 217, 87, 99, 255, 0, 0, 215,
   123, 186, 255, 0, 0, 143, 151, 74, 255, 0, 0, 138, 111, 48, 255, 106, 0, 0, 0, 4, 0, 1, 0, 0, 32, 0, 0, 0, 34,
   32, 52, 69, 40, 60, 102, 57, 49, 143, 86, 59, 223, 113, 38, 217, 160, 102, 238, 195, 154, 251, 242, 54, 153,
   229, 80, 106, 190, 48, 55, 148, 110, 75, 105, 47, 82, 75, 36, 50, 60, 57, 63, 63, 116, 48, 96, 130, 91, 110,
   225, 99, 155, 255, 95, 205, 228, 203, 219, 252, 255, 255, 255, 155, 173, 183, 132, 126, 135, 105, 106, 106, 89,
   86, 82, 118, 66, 138, 172, 50, 50, 217, 87, 99, 215, 123, 186, 143, 151, 74, 138, 111, 48, 31, 0, 0, 0, 4, 32,
   3, 0, 0, 0, 0, 0, 0, 0, 0, 0, 0, 0, 255, 0, 0, 0, 7, 0, 76, 97, 121, 101, 114, 32, 49, 64, 0, 0, 0, 5, 32, 0,
   0, 12, 0, 12, 0, 255, 2, 0, 0, 0, 0, 0, 0, 0, 0, 8, 0, 8, 0, 120, 156, 99, 144, 150, 102, 96, 224, 226, 98,
   144, 6, 2, 46, 32, 128, 209, 12, 80, 113, 6, 65, 65, 6, 16, 16, 20, 132, 48, 96, 52, 76, 28, 0, 100, 180, 2,
   137]

/-- tests/combine.aseprite -/
def combine : Bytes :=
  [69, 9, 0, 0, 224, 165, 1, 0, 128, 0, 128, 0, 32, 0, 1, 0, 0, 0, 100, 0, 0, 0, 0, 0, 0, 0, 0, 0, 0, 0, 0, 0,
   128, 0, 1, 1, 0, 0, 0, 0, 16, 0, 16, 0, 0, 0, 0, 0, 0, 0, 0, 0, 0, 0, 0, 0, 0, 0, 0, 0, 0, 0, 0, 0, 0, 0, 0, 0,
   0, 0, 0, 0, 0, 0, 0, 0, 0, 0, 0, 0, 0, 0, 0, 0, 0, 0, 0, 0, 0, 0, 0, 0, 0, 0, 0, 0, 0, 0, 0, 0, 0, 0, 0, 0, 0,
   0, 0, 0, 0, 0, 0, 0, 0, 0, 0, 0, 0, 0, 0, 0, 0, 0, 0, 0, 0, 0, 0, 0, 197, 8, 0, 0, 250, 241, 12, 0, 100, 0, 0,
   0, 12, 0, 0, 0, 22, 0, 0, 0, 7, 32, 1, 0, 0, 0, 0, 0, 0, 0, 0, 0, 0, 0, 0, 0, 0, 0, 138, 1, 0, 0, 4, 0, 1, 0,
   0, 128, 5, 4, 3, 14, 12, 12, 45, 27, 30, 97, 39, 33, 185, 69, 29, 241, 100, 31, 252, 165, 112, 255, 224, 183,
   255, 255, 255, 255, 240, 137, 248, 197, 58, 232, 138, 54, 176, 91, 44, 103, 57, 49, 39, 31, 27, 76, 61, 46,
   133, 95, 57, 211, 151, 65, 248, 246, 68, 213, 220, 29, 173, 184, 52, 127, 142, 68, 88, 99, 53, 51, 60, 36, 24,
   28, 25, 41, 63, 33, 71, 114, 56, 97, 165, 63, 143, 208, 50, 196, 241, 41, 208, 255, 234, 151, 237, 202, 89,
   207, 147, 66, 164, 89, 61, 111, 67, 39, 65, 45, 20, 18, 29, 27, 36, 71, 43, 78, 149, 39, 137, 205, 66, 191,
   232, 115, 239, 232, 241, 242, 255, 201, 212, 253, 138, 161, 246, 69, 114, 227, 73, 65, 130, 120, 100, 198, 156,
   139, 219, 206, 170, 237, 250, 214, 255, 238, 181, 156, 212, 128, 187, 144, 82, 188, 23, 21, 22, 55, 51, 52,
   105, 91, 89, 178, 139, 120, 226, 178, 126, 246, 216, 150, 252, 247, 190, 236, 235, 231, 203, 198, 193, 166,
   158, 154, 128, 123, 122, 89, 87, 87, 50, 50, 50, 79, 52, 47, 140, 91, 62, 198, 133, 86, 214, 168, 81, 180, 117,
   56, 114, 75, 44, 69, 42, 27, 97, 104, 58, 147, 148, 70, 198, 184, 88, 239, 221, 145, 181, 231, 203, 134, 198,
   154, 93, 155, 121, 72, 104, 89, 44, 59, 57, 23, 24, 25, 44, 52, 56, 70, 84, 86, 100, 135, 140, 138, 196, 195,
   175, 233, 223, 220, 234, 238, 184, 204, 216, 136, 163, 188, 94, 113, 142, 72, 82, 98, 40, 44, 60, 70, 71, 98,
   105, 102, 130, 154, 151, 185, 197, 199, 221, 230, 231, 240, 238, 230, 234, 227, 205, 223, 191, 165, 201, 135,
   115, 143, 86, 79, 91, 50, 47, 53, 54, 40, 43, 101, 73, 86, 150, 104, 136, 192, 144, 169, 212, 184, 184, 234,
   224, 221, 241, 235, 219, 221, 206, 191, 189, 164, 153, 136, 110, 106, 89, 77, 77, 51, 39, 42, 178, 148, 118,
   225, 191, 137, 248, 227, 152, 255, 233, 227, 253, 201, 201, 246, 162, 168, 226, 114, 133, 178, 82, 102, 100,
   54, 75, 42, 30, 35, 31, 0, 0, 0, 4, 32, 3, 0, 0, 0, 0, 0, 0, 0, 0, 0, 0, 0, 255, 0, 0, 0, 7, 0, 76, 97, 121,
   101, 114, 32, 49, 31, 0, 0, 0, 4, 32, 3, 0, 0, 0, 0, 0, 0, 0, 0, 0, 0, 0, 255, 0, 0, 0, 7, 0, 76, 97, 121, 101,
   114, 32, 50, 31, 0, 0, 0, 4, 32, 3, 0, 0, 0, 0, 0, 0, 0, 0, 0, 0, 0, 255, 0, 0, 0, 7, 0, 76, 97, 121, 101, 114,
   32, 51, 31, 0, 0, 0, 4, 32, 3, 0, 0, 0, 0, 0, 0, 0, 0, 0, 0, 0, 186, 0, 0, 0, 7, 0, 76, 97, 121, 101, 114, 32,
   52, 31, 0, 0, 0, 4, 32, 3, 0, 0, 0, 0, 0, 0, 0, 0, 0, 10, 0, 255, 0, 0, 0, 7, 0, 76, 97, 121, 101, 114, 32, 53,
   117, 0, 0, 0, 5, 32, 0, 0, 0, 0, 0, 0, 255, 2, 0, 0, 0, 0, 0, 0, 0, 0, 128, 0, 128, 0, 120, 156, 237, 195, 1,
   13, 0, 0, 8, 3, 160, 166, 239, 96, 17, 43, 223, 32, 194, 70, 102, 27, 85, 85, 85, 85, 85, 85, 85, 85, 85, 85,
   85, 85, 85, 85, 85, 85, 85, 85, 85, 85, 85, 85, 85, 85, 85, 85, 85, 85, 85, 85, 85, 85, 85, 85, 85, 85, 85, 85,
   85, 85, 85, 85, 85, 85, 85, 85, 85, 85, 85, 85, 85, 85, 85, 85, 85, 85, 85, 85, 85, 85, 85, 85, 85, 223, 63,
   67, 23, 8, 218, 191, 1, 0, 0, 5, 32, 1, 0, 22, 0, 10, 0, 255, 2, 0, 0, 0, 0, 0, 0, 0, 0, 92, 0, 108, 0, 120,
   156, 237, 208, 91, 14, 64, 48, 20, 69, 81, 35, 55, 40, 67, 50, 17, 126, 69, 208, 135, 186, 233, 74, 53, 241,
   185, 238, 217, 49, 77, 255, 59, 190, 117, 153, 183, 227, 247, 181, 143, 222, 235, 197, 159, 221, 219, 255, 150,
   242, 209, 123, 61, 249, 148, 77, 221, 40, 245, 209, 123, 163, 123, 173, 183, 165, 207, 181, 119, 55, 74, 125,
   244, 222, 232, 94, 235, 213, 189, 214, 171, 123, 173, 87, 247, 90, 175, 238, 181, 94, 221, 107, 189, 186, 215,
   122, 117, 175, 245, 234, 94, 235, 213, 189, 214, 171, 123, 173, 87, 247, 90, 175, 238, 181, 94, 221, 107, 189,
   186, 215, 122, 117, 175, 245, 234, 94, 235, 213, 189, 214, 171, 123, 173, 87, 247, 90, 175, 238, 181, 94, 221,
   107, 189, 186, 215, 122, 117, 175, 245, 234, 94, 235, 213, 189, 214, 171, 123, 173, 87, 247, 90, 175, 238, 181,
   94, 221, 107, 189, 186, 215, 122, 117, 175, 245, 234, 94, 235, 213, 189, 214, 171, 123, 173, 87, 247, 90, 175,
   238, 181, 94, 221, 107, 189, 186, 215, 122, 117, 175, 245, 234, 94, 235, 213, 189, 214, 171, 123, 173, 87, 247,
   90, 175, 238, 181, 94, 221, 107, 189, 186, 215, 122, 117, 175, 245, 234, 94, 235, 213, 189, 214, 171, 123, 173,
   87, 247, 90, 175, 238, 181, 94, 221, 107, 189, 186, 215, 122, 117, 175, 245, 234, 94, 235, 213, 189, 214, 171,
   123, 173, 87, 247, 90, 175, 238, 181, 94, 221, 107, 189, 186, 215, 122, 117, 175, 245, 234, 94, 235, 213, 189,
   214, 171, 123, 173, 87, 247, 90, 175, 238, 181, 94, 221, 107, 189, 186, 215, 122, 117, 175, 245, 234, 94, 235,
   213, 189, 214, 171, 123, 173, 87, 247, 90, 175, 238, 181, 94, 221, 107, 189, 186, 215, 122, 117, 175, 245, 234,
   94, 235, 213, 189, 214, 171, 123, 173, 87, 247, 90, 175, 238, 181, 94, 221, 107, 189, 186, 215, 122, 117, 175,
   245, 234, 94, 235, 213, 189, 214, 171, 123, 173, 87, 247, 90, 175, 238, 181, 94, 221, 107, 189, 186, 215, 122,
   117, 175, 245, 234, 94, 235, 213, 189, 214, 219, 218, 151, 220, 184, 178, 53, 62, 122, 111, 116, 175, 245, 182,
   246, 57, 55, 158, 108, 141, 143, 222, 235, 205, 223, 221, 201, 117, 181, 62, 122, 175, 55, 255, 245, 219, 1,
   171, 196, 0, 31, 201, 0, 0, 0, 5, 32, 2, 0, 11, 0, 22, 0, 255, 2, 0, 0, 0, 0, 0, 0, 0, 0, 111, 0, 48, 0, 120,
   156, 237, 215, 177, 9, 3, 65, 16, 3, 192, 175, 205, 141, 187, 29, 119, 97, 135, 254, 224, 35, 241, 32, 11, 143,
   96, 114, 193, 194, 221, 238, 113, 124, 243, 120, 190, 222, 252, 182, 227, 34, 237, 78, 100, 243, 107, 119, 33,
   155, 95, 187, 3, 192, 18, 239, 230, 38, 251, 202, 38, 119, 194, 166, 171, 185, 137, 136, 136, 252, 75, 218,
   255, 48, 217, 174, 210, 238, 68, 54, 191, 118, 23, 178, 249, 181, 59, 0, 44, 241, 110, 110, 178, 175, 108, 114,
   39, 108, 186, 231, 146, 23, 17, 17, 217, 76, 251, 31, 38, 219, 85, 218, 157, 200, 230, 215, 238, 66, 54, 191,
   118, 7, 128, 37, 222, 205, 77, 246, 149, 77, 238, 132, 77, 247, 92, 242, 34, 34, 34, 155, 105, 255, 195, 100,
   187, 74, 187, 19, 217, 252, 218, 93, 200, 230, 215, 238, 0, 176, 196, 187, 185, 201, 190, 178, 201, 157, 176,
   233, 60, 175, 15, 189, 223, 72, 245, 167, 0, 0, 0, 5, 32, 3, 0, 10, 0, 76, 0, 255, 2, 0, 0, 0, 0, 0, 0, 0, 0,
   113, 0, 33, 0, 120, 156, 237, 216, 187, 9, 3, 65, 16, 3, 208, 109, 234, 122, 113, 238, 254, 107, 240, 133, 190,
   96, 179, 57, 16, 90, 158, 224, 229, 130, 129, 217, 207, 90, 255, 124, 190, 215, 143, 14, 107, 147, 116, 39,
   102, 115, 76, 119, 97, 54, 199, 116, 7, 128, 19, 216, 167, 221, 220, 107, 186, 121, 95, 116, 219, 205, 79, 68,
   68, 222, 73, 122, 199, 51, 59, 15, 211, 157, 152, 205, 49, 221, 133, 217, 28, 211, 29, 0, 78, 96, 159, 118,
   115, 175, 233, 230, 125, 209, 237, 157, 31, 1, 17, 17, 217, 37, 189, 227, 153, 157, 135, 233, 78, 204, 230,
   152, 238, 194, 108, 142, 233, 14, 0, 39, 176, 79, 187, 185, 215, 116, 243, 190, 232, 246, 156, 219, 13, 172,
   225, 129, 120, 214, 2, 0, 0, 5, 32, 4, 0, 2, 0, 2, 0, 255, 2, 0, 0, 0, 0, 0, 0, 0, 0, 125, 0, 124, 0, 120, 156,
   237, 216, 221, 141, 219, 48, 16, 69, 225, 237, 57, 13, 164, 175, 180, 145, 34, 242, 150, 18, 54, 200, 195, 133,
   189, 182, 181, 214, 15, 103, 230, 146, 115, 14, 192, 55, 74, 0, 245, 129, 144, 196, 143, 143, 231, 126, 255,
   252, 245, 121, 63, 94, 76, 161, 69, 122, 180, 198, 126, 237, 222, 121, 227, 238, 223, 143, 191, 127, 62, 239,
   199, 119, 115, 247, 122, 227, 238, 217, 163, 245, 30, 251, 163, 230, 184, 251, 244, 206, 251, 149, 251, 25,
   111, 220, 61, 218, 235, 253, 232, 126, 197, 28, 247, 186, 142, 122, 143, 52, 199, 61, 191, 51, 222, 247, 238,
   35, 204, 113, 207, 235, 138, 247, 232, 189, 142, 123, 124, 87, 189, 35, 204, 113, 143, 107, 132, 247, 200, 239,
   119, 220, 99, 139, 240, 86, 184, 251, 53, 202, 123, 203, 252, 127, 184, 251, 148, 225, 173, 112, 175, 47, 211,
   91, 225, 94, 87, 133, 183, 194, 61, 191, 74, 111, 133, 123, 94, 14, 222, 10, 247, 248, 156, 188, 213, 72, 119,
   236, 191, 230, 232, 173, 112, 31, 159, 179, 183, 194, 125, 92, 51, 120, 43, 220, 175, 55, 147, 183, 194, 253,
   124, 51, 122, 43, 220, 143, 55, 179, 183, 194, 125, 127, 43, 120, 43, 220, 223, 183, 146, 183, 194, 125, 187,
   21, 189, 21, 238, 207, 173, 236, 173, 112, 191, 213, 193, 91, 225, 222, 203, 251, 190, 174, 238, 93, 189, 85,
   55, 247, 238, 222, 170, 139, 59, 222, 95, 91, 221, 29, 239, 215, 173, 234, 142, 247, 247, 173, 230, 142, 247,
   190, 86, 113, 199, 251, 88, 179, 187, 227, 125, 174, 89, 221, 241, 190, 214, 108, 238, 120, 143, 105, 22, 119,
   188, 199, 230, 238, 142, 119, 76, 174, 238, 120, 199, 230, 230, 142, 119, 78, 46, 238, 120, 231, 86, 237, 142,
   119, 77, 85, 238, 120, 215, 150, 237, 142, 183, 71, 89, 238, 120, 123, 21, 237, 142, 183, 103, 81, 238, 120,
   123, 55, 218, 29, 239, 57, 26, 101, 142, 247, 92, 225, 221, 51, 188, 123, 134, 119, 207, 240, 238, 25, 222, 61,
   195, 187, 103, 120, 247, 12, 239, 158, 141, 244, 126, 60, 171, 37, 191, 70, 123, 191, 58, 163, 39, 159, 162,
   188, 113, 247, 44, 218, 27, 119, 175, 178, 188, 113, 247, 40, 219, 27, 247, 218, 170, 188, 113, 175, 169, 218,
   27, 247, 220, 92, 188, 113, 207, 201, 205, 27, 247, 216, 70, 122, 235, 158, 184, 251, 22, 225, 173, 112, 247,
   43, 210, 91, 225, 238, 83, 134, 183, 194, 189, 190, 76, 111, 133, 123, 93, 21, 222, 10, 247, 252, 42, 189, 21,
   238, 121, 57, 120, 43, 220, 227, 115, 242, 86, 184, 199, 229, 232, 173, 112, 31, 159, 179, 183, 194, 125, 92,
   51, 120, 43, 220, 175, 55, 147, 183, 194, 253, 124, 51, 122, 43, 220, 143, 55, 179, 183, 194, 125, 127, 43,
   120, 43, 220, 223, 183, 146, 183, 194, 125, 187, 21, 189, 21, 238, 207, 173, 236, 173, 112, 191, 213, 193, 91,
   141, 116, 159, 213, 190, 147, 183, 234, 236, 222, 209, 91, 117, 116, 239, 236, 173, 58, 185, 227, 125, 171,
   131, 59, 222, 207, 173, 236, 142, 247, 118, 43, 186, 227, 253, 190, 149, 220, 241, 222, 223, 10, 238, 120, 31,
   111, 102, 119, 188, 207, 55, 163, 59, 222, 215, 155, 201, 29, 239, 177, 185, 187, 227, 29, 147, 171, 59, 222,
   177, 185, 185, 227, 157, 147, 139, 59, 222, 185, 85, 187, 227, 93, 83, 149, 59, 222, 181, 101, 187, 227, 237,
   81, 150, 59, 222, 94, 69, 187, 227, 237, 89, 148, 57, 222, 222, 69, 184, 227, 237, 223, 72, 115, 188, 231, 201,
   201, 188, 242, 57, 116, 203, 193, 188, 114, 253, 93, 171, 124, 151, 87, 173, 153, 142, 187, 63, 94, 143, 247,
   156, 101, 254, 155, 103, 175, 141, 182, 59, 227, 173, 240, 158, 187, 35, 214, 247, 225, 221, 55, 172, 215, 236,
   31, 244, 159, 189, 171]

/-- tests/issue_4_1.aseprite -/
def issue41 : Bytes :=
  [21, 2, 0, 0, 224, 165, 1, 0, 64, 0, 64, 0, 8, 0, 1, 0, 0, 0, 100, 0, 0, 0, 0, 0, 0, 0, 0, 0, 0, 0, 0, 0, 32, 0,
   1, 1, 0, 0, 0, 0, 16, 0, 16, 0, 0, 0, 0, 0, 0, 0, 0, 0, 0, 0, 0, 0, 0, 0, 0, 0, 0, 0, 0, 0, 0, 0, 0, 0, 0, 0,
   0, 0, 0, 0, 0, 0, 0, 0, 0, 0, 0, 0, 0, 0, 0, 0, 0, 0, 0, 0, 0, 0, 0, 0, 0, 0, 0, 0, 0, 0, 0, 0, 0, 0, 0, 0, 0,
   0, 0, 0, 0, 0, 0, 0, 0, 0, 0, 0, 0, 0, 0, 0, 0, 0, 0, 0, 0, 0, 149, 1, 0, 0, 250, 241, 6, 0, 100, 0, 0, 0, 6,
   0, 0, 0, 22, 0, 0, 0, 7, 32, 1, 0, 0, 0, 0, 0, 0, 0, 0, 0, 0, 0, 0, 0, 0, 0, 106, 0, 0, 0, 4, 0, 1, 0, 0, 32,
   0, 0, 0, 34, 32, 52, 69, 40, 60, 102, 57, 49, 143, 86, 59, 223, 113, 38, 217, 160, 102, 238, 195, 154, 251,
   242, 54, 153, 229, 80, 106, 190, 48, 55, 148, 110, 75, 105, 47, 82, 75, 36, 50, 60, 57, 63, 63, 116, 48, 96,
   130, 91, 110, 225, 99, 155, 255, 95, 205, 228, 203, 219, 252, 255, 255, 255, 155, 173, 183, 132, 126, 135, 105,
   106, 106, 89, 86, 82, 118, 66, 138, 172, 50, 50, 217, 87, 99, 215, 123, 186, 143, 151, 74, 138, 111, 48, 39, 0,
   0, 0, 24, 32, 1, 0, 0, 0, 0, 0, 0, 0, 0, 0, 0, 0, 0, 0, 0, 0, 0, 0, 0, 0, 0, 0, 0, 0, 0, 0, 0, 4, 0, 105, 100,
   108, 101, 14, 0, 0, 0, 32, 32, 2, 0, 0, 0, 0, 0, 0, 255, 31, 0, 0, 0, 4, 32, 3, 0, 0, 0, 0, 0, 0, 0, 0, 0, 0,
   0, 255, 0, 0, 0, 7, 0, 76, 97, 121, 101, 114, 32, 49, 177, 0, 0, 0, 5, 32, 0, 0, 243, 255, 24, 0, 255, 2, 0, 0,
   0, 0, 0, 0, 0, 0, 49, 0, 21, 0, 120, 156, 205, 146, 73, 22, 196, 32, 8, 5, 225, 0, 194, 250, 223, 255, 162,
   173, 96, 199, 40, 146, 161, 87, 93, 239, 133, 24, 161, 140, 19, 209, 25, 102, 226, 26, 61, 144, 181, 152, 46,
   224, 29, 151, 245, 34, 91, 39, 241, 237, 91, 89, 181, 7, 45, 202, 96, 97, 0, 237, 49, 218, 156, 15, 196, 186,
   4, 11, 53, 3, 47, 240, 215, 72, 136, 163, 95, 108, 144, 58, 201, 210, 114, 40, 198, 176, 123, 118, 66, 167,
   236, 193, 248, 245, 82, 31, 214, 218, 155, 229, 118, 99, 166, 189, 185, 23, 194, 222, 231, 2, 30, 8, 241, 176,
   227, 233, 174, 2, 188, 44, 169, 167, 181, 215, 132, 118, 243, 116, 91, 238, 2, 69, 33, 25, 222, 5, 138, 194,
   11, 254, 82, 72, 22, 251, 179, 240, 1, 68, 34, 12, 65]

/-- tests/issue_4_2.aseprite -/
def issue42 : Bytes :=
  [108, 7, 0, 0, 224, 165, 6, 0, 64, 0, 64, 0, 8, 0, 1, 0, 0, 0, 100, 0, 0, 0, 0, 0, 0, 0, 0, 0, 0, 0, 0, 0, 32,
   0, 1, 1, 0, 0, 0, 0, 16, 0, 16, 0, 0, 0, 0, 0, 0, 0, 0, 0, 0, 0, 0, 0, 0, 0, 0, 0, 0, 0, 0, 0, 0, 0, 0, 0, 0,
   0, 0, 0, 0, 0, 0, 0, 0, 0, 0, 0, 0, 0, 0, 0, 0, 0, 0, 0, 0, 0, 0, 0, 0, 0, 0, 0, 0, 0, 0, 0, 0, 0, 0, 0, 0, 0,
   0, 0, 0, 0, 0, 0, 0, 0, 0, 0, 0, 0, 0, 0, 0, 0, 0, 0, 0, 0, 0, 0, 149, 1, 0, 0, 250, 241, 6, 0, 100, 0, 0, 0,
   6, 0, 0, 0, 22, 0, 0, 0, 7, 32, 1, 0, 0, 0, 0, 0, 0, 0, 0, 0, 0, 0, 0, 0, 0, 0, 106, 0, 0, 0, 4, 0, 1, 0, 0,
   32, 0, 0, 0, 34, 32, 52, 69, 40, 60, 102, 57, 49, 143, 86, 59, 223, 113, 38, 217, 160, 102, 238, 195, 154, 251,
   242, 54, 153, 229, 80, 106, 190, 48, 55, 148, 110, 75, 105, 47, 82, 75, 36, 50, 60, 57, 63, 63, 116, 48, 96,
   130, 91, 110, 225, 99, 155, 255, 95, 205, 228, 203, 219, 252, 255, 255, 255, 155, 173, 183, 132, 126, 135, 105,
   106, 106, 89, 86, 82, 118, 66, 138, 172, 50, 50, 217, 87, 99, 215, 123, 186, 143, 151, 74, 138, 111, 48, 39, 0,
   0, 0, 24, 32, 1, 0, 0, 0, 0, 0, 0, 0, 0, 0, 0, 0, 5, 0, 0, 0, 0, 0, 0, 0, 0, 0, 0, 0, 0, 0, 0, 4, 0, 105, 100,
   108, 101, 14, 0, 0, 0, 32, 32, 2, 0, 0, 0, 0, 0, 0, 255, 31, 0, 0, 0, 4, 32, 3, 0, 0, 0, 0, 0, 0, 0, 0, 0, 0,
   0, 255, 0, 0, 0, 7, 0, 76, 97, 121, 101, 114, 32, 49, 177, 0, 0, 0, 5, 32, 0, 0, 241, 255, 24, 0, 255, 2, 0, 0,
   0, 0, 0, 0, 0, 0, 49, 0, 21, 0, 120, 156, 205, 146, 73, 22, 196, 32, 8, 5, 225, 0, 194, 250, 223, 255, 162,
   173, 96, 199, 40, 146, 161, 87, 93, 239, 133, 24, 161, 140, 19, 209, 25, 102, 226, 26, 61, 144, 181, 152, 46,
   224, 29, 151, 245, 34, 91, 39, 241, 237, 91, 89, 181, 7, 45, 202, 96, 97, 0, 237, 49, 218, 156, 15, 196, 186,
   4, 11, 53, 3, 47, 240, 215, 72, 136, 163, 95, 108, 144, 58, 201, 210, 114, 40, 198, 176, 123, 118, 66, 167,
   236, 193, 248, 245, 82, 31, 214, 218, 155, 229, 118, 99, 166, 189, 185, 23, 194, 222, 231, 2, 30, 8, 241, 176,
   227, 233, 174, 2, 188, 44, 169, 167, 181, 215, 132, 118, 243, 116, 91, 238, 2, 69, 33, 25, 222, 5, 138, 194,
   11, 254, 82, 72, 22, 251, 179, 240, 1, 68, 34, 12, 65, 193, 0, 0, 0, 250, 241, 1, 0, 100, 0, 0, 0, 1, 0, 0, 0,
   177, 0, 0, 0, 5, 32, 0, 0, 35, 0, 22, 0, 255, 2, 0, 0, 0, 0, 0, 0, 0, 0, 49, 0, 21, 0, 120, 156, 205, 146, 73,
   22, 196, 32, 8, 5, 225, 0, 194, 250, 223, 255, 162, 173, 96, 199, 40, 146, 161, 87, 93, 239, 133, 24, 161, 140,
   19, 209, 25, 102, 226, 26, 61, 144, 181, 152, 46, 224, 29, 151, 245, 34, 91, 39, 241, 237, 91, 89, 181, 7, 45,
   202, 96, 97, 0, 237, 49, 218, 156, 15, 196, 186, 4, 11, 53, 3, 47, 240, 215, 72, 136, 163, 95, 108, 144, 58,
   201, 210, 114, 40, 198, 176, 123, 118, 66, 167, 236, 193, 248, 245, 82, 31, 214, 218, 155, 229, 118, 99, 166,
   189, 185, 23, 194, 222, 231, 2, 30, 8, 241, 176, 227, 233, 174, 2, 188, 44, 169, 167, 181, 215, 132, 118, 243,
   116, 91, 238, 2, 69, 33, 25, 222, 5, 138, 194, 11, 254, 82, 72, 22, 251, 179, 240, 1, 68, 34, 12, 65, 193, 0,
   0, 0, 250, 241, 1, 0, 100, 0, 0, 0, 1, 0, 0, 0, 177, 0, 0, 0, 5, 32, 0, 0, 238, 255, 251, 255, 255, 2, 0, 0, 0,
   0, 0, 0, 0, 0, 49, 0, 21, 0, 120, 156, 205, 146, 73, 22, 196, 32, 8, 5, 225, 0, 194, 250, 223, 255, 162, 173,
   96, 199, 40, 146, 161, 87, 93, 239, 133, 24, 161, 140, 19, 209, 25, 102, 226, 26, 61, 144, 181, 152, 46, 224,
   29, 151, 245, 34, 91, 39, 241, 237, 91, 89, 181, 7, 45, 202, 96, 97, 0, 237, 49, 218, 156, 15, 196, 186, 4, 11,
   53, 3, 47, 240, 215, 72, 136, 163, 95, 108, 144, 58, 201, 210, 114, 40, 198, 176, 123, 118, 66, 167, 236, 193,
   248, 245, 82, 31, 214, 218, 155, 229, 118, 99, 166, 189, 185, 23, 194, 222, 231, 2, 30, 8, 241, 176, 227, 233,
   174, 2, 188, 44, 169, 167, 181, 215, 132, 118, 243, 116, 91, 238, 2, 69, 33, 25, 222, 5, 138, 194, 11, 254, 82,
   72, 22, 251, 179, 240, 1, 68, 34, 12, 65, 193, 0, 0, 0, 250, 241, 1, 0, 100, 0, 0, 0, 1, 0, 0, 0, 177, 0, 0, 0,
   5, 32, 0, 0, 18, 0, 45, 0, 255, 2, 0, 0, 0, 0, 0, 0, 0, 0, 49, 0, 21, 0, 120, 156, 205, 146, 73, 22, 196, 32,
   8, 5, 225, 0, 194, 250, 223, 255, 162, 173, 96, 199, 40, 146, 161, 87, 93, 239, 133, 24, 161, 140, 19, 209, 25,
   102, 226, 26, 61, 144, 181, 152, 46, 224, 29, 151, 245, 34, 91, 39, 241, 237, 91, 89, 181, 7, 45, 202, 96, 97,
   0, 237, 49, 218, 156, 15, 196, 186, 4, 11, 53, 3, 47, 240, 215, 72, 136, 163, 95, 108, 144, 58, 201, 210, 114,
   40, 198, 176, 123, 118, 66, 167, 236, 193, 248, 245, 82, 31, 214, 218, 155, 229, 118, 99, 166, 189, 185, 23,
   194, 222, 231, 2, 30, 8, 241, 176, 227, 233, 174, 2, 188, 44, 169, 167, 181, 215, 132, 118, 243, 116, 91, 238,
   2, 69, 33, 25, 222, 5, 138, 194, 11, 254, 82, 72, 22, 251, 179, 240, 1, 68, 34, 12, 65, 138, 1, 0, 0, 250, 241,
   1, 0, 100, 0, 0, 0, 1, 0, 0, 0, 122, 1, 0, 0, 5, 32, 0, 0, 248, 255, 250, 255, 255, 2, 0, 0, 0, 0, 0, 0, 0, 0,
   72, 0, 32, 0, 120, 156, 165, 214, 193, 178, 131, 32, 12, 5, 80, 34, 108, 133, 29, 76, 92, 188, 255, 255, 204,
   23, 130, 86, 32, 73, 75, 109, 166, 155, 170, 156, 94, 144, 48, 117, 174, 85, 158, 202, 61, 168, 217, 120, 164,
   217, 136, 148, 0, 158, 50, 3, 4, 136, 38, 244, 209, 185, 33, 32, 7, 205, 72, 235, 16, 212, 178, 161, 213, 169,
   1, 236, 117, 98, 191, 68, 58, 211, 236, 192, 10, 194, 89, 223, 75, 23, 3, 167, 18, 233, 19, 165, 180, 176, 70,
   23, 211, 34, 69, 68, 37, 17, 134, 240, 71, 23, 67, 160, 103, 142, 67, 181, 97, 168, 72, 133, 105, 150, 200,
   174, 208, 198, 63, 129, 122, 74, 233, 80, 141, 18, 71, 12, 33, 228, 13, 182, 227, 24, 162, 106, 139, 125, 67,
   216, 34, 185, 1, 34, 137, 29, 123, 225, 92, 15, 85, 41, 37, 76, 67, 36, 108, 145, 54, 98, 222, 64, 78, 131,
   198, 72, 158, 161, 204, 80, 254, 0, 137, 72, 221, 94, 242, 12, 149, 156, 165, 227, 132, 83, 187, 94, 143, 228,
   189, 47, 133, 156, 2, 89, 57, 114, 132, 51, 46, 55, 65, 123, 98, 135, 24, 239, 170, 163, 111, 118, 213, 193,
   91, 106, 199, 0, 59, 245, 86, 41, 70, 211, 72, 167, 237, 233, 11, 74, 12, 189, 110, 21, 171, 251, 148, 245,
   185, 91, 245, 194, 112, 122, 7, 210, 81, 227, 192, 107, 173, 185, 48, 70, 193, 192, 2, 131, 204, 240, 48, 236,
   71, 129, 9, 105, 204, 121, 38, 130, 75, 211, 32, 0, 11, 178, 222, 185, 50, 11, 126, 6, 188, 10, 41, 76, 27,
   222, 155, 252, 29, 218, 195, 180, 131, 218, 5, 106, 123, 89, 211, 202, 59, 251, 124, 70, 204, 237, 140, 41, 11,
   140, 93, 200, 78, 166, 182, 144, 208, 186, 82, 157, 150, 151, 134, 149, 135, 4, 143, 239, 14, 83, 106, 180,
   111, 135, 223, 78, 255, 170, 223, 252, 23, 120, 87, 255, 157, 122, 64, 191, 138, 1, 0, 0, 250, 241, 1, 0, 100,
   0, 0, 0, 1, 0, 0, 0, 122, 1, 0, 0, 5, 32, 0, 0, 251, 255, 41, 0, 255, 2, 0, 0, 0, 0, 0, 0, 0, 0, 72, 0, 32, 0,
   120, 156, 165, 214, 193, 178, 131, 32, 12, 5, 80, 34, 108, 133, 29, 76, 92, 188, 255, 255, 204, 23, 130, 86,
   32, 73, 75, 109, 166, 155, 170, 156, 94, 144, 48, 117, 174, 85, 158, 202, 61, 168, 217, 120, 164, 217, 136,
   148, 0, 158, 50, 3, 4, 136, 38, 244, 209, 185, 33, 32, 7, 205, 72, 235, 16, 212, 178, 161, 213, 169, 1, 236,
   117, 98, 191, 68, 58, 211, 236, 192, 10, 194, 89, 223, 75, 23, 3, 167, 18, 233, 19, 165, 180, 176, 70, 23, 211,
   34, 69, 68, 37, 17, 134, 240, 71, 23, 67, 160, 103, 142, 67, 181, 97, 168, 72, 133, 105, 150, 200, 174, 208,
   198, 63, 129, 122, 74, 233, 80, 141, 18, 71, 12, 33, 228, 13, 182, 227, 24, 162, 106, 139, 125, 67, 216, 34,
   185, 1, 34, 137, 29, 123, 225, 92, 15, 85, 41, 37, 76, 67, 36, 108, 145, 54, 98, 222, 64, 78, 131, 198, 72,
   158, 161, 204, 80, 254, 0, 137, 72, 221, 94, 242, 12, 149, 156, 165, 227, 132, 83, 187, 94, 143, 228, 189, 47,
   133, 156, 2, 89, 57, 114, 132, 51, 46, 55, 65, 123, 98, 135, 24, 239, 170, 163, 111, 118, 213, 193, 91, 106,
   199, 0, 59, 245, 86, 41, 70, 211, 72, 167, 237, 233, 11, 74, 12, 189, 110, 21, 171, 251, 148, 245, 185, 91,
   245, 194, 112, 122, 7, 210, 81, 227, 192, 107, 173, 185, 48, 70, 193, 192, 2, 131, 204, 240, 48, 236, 71, 129,
   9, 105, 204, 121, 38, 130, 75, 211, 32, 0, 11, 178, 222, 185, 50, 11, 126, 6, 188, 10, 41, 76, 27, 222, 155,
   252, 29, 218, 195, 180, 131, 218, 5, 106, 123, 89, 211, 202, 59, 251, 124, 70, 204, 237, 140, 41, 11, 140, 93,
   200, 78, 166, 182, 144, 208, 186, 82, 157, 150, 151, 134, 149, 135, 4, 143, 239, 14, 83, 106, 180, 111, 135,
   223, 78, 255, 170, 223, 252, 23, 120, 87, 255, 157, 122, 64, 191]

/-- tests/layers.aseprite -/
def layers : Bytes :=
  [173, 2, 0, 0, 224, 165, 1, 0, 32, 0, 32, 0, 32, 0, 1, 0, 0, 0, 100, 0, 0, 0, 0, 0, 0, 0, 0, 0, 0, 0, 0, 0, 32,
   0, 1, 1, 0, 0, 0, 0, 16, 0, 16, 0, 0, 0, 0, 0, 0, 0, 0, 0, 0, 0, 0, 0, 0, 0, 0, 0, 0, 0, 0, 0, 0, 0, 0, 0, 0,
   0, 0, 0, 0, 0, 0, 0, 0, 0, 0, 0, 0, 0, 0, 0, 0, 0, 0, 0, 0, 0, 0, 0, 0, 0, 0, 0, 0, 0, 0, 0, 0, 0, 0, 0, 0, 0,
   0, 0, 0, 0, 0, 0, 0, 0, 0, 0, 0, 0, 0, 0, 0, 0, 0, 0, 0, 0, 0, 0, 45, 2, 0, 0, 250, 241, 8, 0, 100, 0, 0, 0, 8,
   0, 0, 0, 22, 0, 0, 0, 7, 32, 1, 0, 0, 0, 0, 0, 0, 0, 0, 0, 0, 0, 0, 0, 0, 0, 106, 0, 0, 0, 4, 0, 1, 0, 0, 32,
   0, 0, 0, 34, 32, 52, 69, 40, 60, 102, 57, 49, 143, 86, 59, 223, 113, 38, 217, 160, 102, 238, 195, 154, 251,
   242, 54, 153, 229, 80, 106, 190, 48, 55, 148, 110, 75, 105, 47, 82, 75, 36, 50, 60, 57, 63, 63, 116, 48, 96,
   130, 91, 110, 225, 99, 155, 255, 95, 205, 228, 203, 219, 252, 255, 255, 255, 155, 173, 183, 132, 126, 135, 105,
   106, 106, 89, 86, 82, 118, 66, 138, 172, 50, 50, 217, 87, 99, 215, 123, 186, 143, 151, 74, 138, 111, 48, 31, 0,
   0, 0, 4, 32, 3, 0, 0, 0, 0, 0, 0, 0, 0, 0, 0, 0, 255, 0, 0, 0, 7, 0, 76, 97, 121, 101, 114, 32, 49, 31, 0, 0,
   0, 4, 32, 3, 0, 0, 0, 0, 0, 0, 0, 0, 0, 0, 0, 255, 0, 0, 0, 7, 0, 76, 97, 121, 101, 114, 32, 50, 31, 0, 0, 0,
   4, 32, 3, 0, 0, 0, 0, 0, 0, 0, 0, 0, 0, 0, 255, 0, 0, 0, 7, 0, 76, 97, 121, 101, 114, 32, 51, 89, 0, 0, 0, 5,
   32, 0, 0, 8, 0, 3, 0, 255, 2, 0, 0, 0, 0, 0, 0, 0, 0, 12, 0, 25, 0, 120, 156, 99, 96, 32, 30, 204, 124, 26,
   240, 159, 20, 181, 164, 170, 167, 133, 217, 48, 181, 196, 168, 71, 86, 67, 72, 61, 186, 60, 46, 245, 184, 236,
   38, 86, 12, 151, 93, 248, 220, 71, 138, 63, 136, 85, 51, 92, 212, 15, 38, 183, 140, 170, 39, 78, 61, 178, 30,
   0, 198, 248, 106, 111, 110, 0, 0, 0, 5, 32, 1, 0, 6, 0, 4, 0, 255, 2, 0, 0, 0, 0, 0, 0, 0, 0, 21, 0, 24, 0,
   120, 156, 99, 96, 192, 13, 148, 20, 76, 254, 99, 195, 120, 180, 16, 52, 135, 28, 121, 108, 106, 73, 181, 159,
   154, 230, 17, 210, 71, 142, 121, 248, 244, 82, 98, 30, 53, 244, 99, 51, 143, 22, 102, 82, 219, 188, 161, 224,
   198, 81, 243, 6, 135, 121, 212, 78, 47, 195, 217, 175, 216, 244, 15, 54, 243, 136, 177, 131, 18, 247, 33, 139,
   147, 131, 73, 177, 135, 18, 0, 0, 112, 80, 99, 21, 121, 0, 0, 0, 5, 32, 2, 0, 6, 0, 1, 0, 255, 2, 0, 0, 0, 0,
   0, 0, 0, 0, 21, 0, 26, 0, 120, 156, 99, 96, 128, 128, 228, 217, 255, 255, 19, 139, 25, 8, 0, 82, 212, 18, 171,
   135, 20, 179, 240, 153, 79, 137, 25, 244, 54, 119, 36, 154, 73, 77, 243, 40, 141, 27, 114, 210, 62, 62, 189,
   212, 242, 27, 45, 204, 196, 103, 7, 45, 205, 31, 42, 230, 194, 204, 166, 149, 185, 67, 33, 111, 14, 69, 115,
   105, 81, 62, 161, 155, 73, 73, 252, 17, 170, 243, 72, 205, 135, 212, 172, 119, 169, 145, 46, 137, 245, 3, 0,
   238, 227, 232, 201]

/-- tests/tags.aseprite -/
def tags : Bytes :=
  [149, 2, 0, 0, 224, 165, 1, 0, 32, 0, 32, 0, 32, 0, 1, 0, 0, 0, 100, 0, 0, 0, 0, 0, 0, 0, 0, 0, 0, 0, 0, 0, 32,
   0, 1, 1, 0, 0, 0, 0, 16, 0, 16, 0, 0, 0, 0, 0, 0, 0, 0, 0, 0, 0, 0, 0, 0, 0, 0, 0, 0, 0, 0, 0, 0, 0, 0, 0, 0,
   0, 0, 0, 0, 0, 0, 0, 0, 0, 0, 0, 0, 0, 0, 0, 0, 0, 0, 0, 0, 0, 0, 0, 0, 0, 0, 0, 0, 0, 0, 0, 0, 0, 0, 0, 0, 0,
   0, 0, 0, 0, 0, 0, 0, 0, 0, 0, 0, 0, 0, 0, 0, 0, 0, 0, 0, 0, 0, 0, 21, 2, 0, 0, 250, 241, 6, 0, 100, 0, 0, 0, 6,
   0, 0, 0, 22, 0, 0, 0, 7, 32, 1, 0, 0, 0, 0, 0, 0, 0, 0, 0, 0, 0, 0, 0, 0, 0, 218, 0, 0, 0, 25, 32, 32, 0, 0, 0,
   0, 0, 0, 0, 31, 0, 0, 0, 0, 0, 0, 0, 0, 0, 0, 0, 0, 0, 0, 0, 0, 255, 0, 0, 34, 32, 52, 255, 0, 0, 69, 40, 60,
   255, 0, 0, 102, 57, 49, 255, 0, 0, 143, 86, 59, 255, 0, 0, 223, 113, 38, 255, 0, 0, 217, 160, 102, 255, 0, 0,
   238, 195, 154, 255, 0, 0, 251, 242, 54, 255, 0, 0, 153, 229, 80, 255, 0, 0, 106, 190, 48, 255, 0, 0, 55, 148,
   110, 255, 0, 0, 75, 105, 47, 255, 0, 0, 82, 75, 36, 255, 0, 0, 50, 60, 57, 255, 0, 0, 63, 63, 116, 255, 0, 0,
   48, 96, 130, 255, 0, 0, 91, 110, 225, 255, 0, 0, 99, 155, 255, 255, 0, 0, 95, 205, 228, 255, 0, 0, 203, 219,
   252, 255, 0, 0, 255, 255, 255, 255, 0, 0, 155, 173, 183, 255, 0, 0, 132, 126, 135, 255, 0, 0, 105, 106, 106,
   255, 0, 0, 89, 86, 82, 255, 0, 0, 118, 66, 138, 255, 0, 0, 172, 50, 50, 255, 0, 0, 217, 87, 99, 255, 0, 0, 215,
   123, 186, 255, 0, 0, 143, 151, 74, 255, 0, 0, 138, 111, 48, 255, 106, 0, 0, 0, 4, 0, 1, 0, 0, 32, 0, 0, 0, 34,
   32, 52, 69, 40, 60, 102, 57, 49, 143, 86, 59, 223, 113, 38, 217, 160, 102, 238, 195, 154, 251, 242, 54, 153,
   229, 80, 106, 190, 48, 55, 148, 110, 75, 105, 47, 82, 75, 36, 50, 60, 57, 63, 63, 116, 48, 96, 130, 91, 110,
   225, 99, 155, 255, 95, 205, 228, 203, 219, 252, 255, 255, 255, 155, 173, 183, 132, 126, 135, 105, 106, 106, 89,
   86, 82, 118, 66, 138, 172, 50, 50, 217, 87, 99, 215, 123, 186, 143, 151, 74, 138, 111, 48, 31, 0, 0, 0, 4, 32,
   3, 0, 0, 0, 0, 0, 0, 0, 0, 0, 0, 0, 255, 0, 0, 0, 7, 0, 76, 97, 121, 101, 114, 32, 49, 88, 0, 0, 0, 24, 32, 3,
   0, 0, 0, 0, 0, 0, 0, 0, 0, 0, 0, 0, 0, 0, 0, 0, 0, 0, 0, 0, 0, 0, 0, 0, 0, 0, 5, 0, 84, 97, 103, 32, 49, 0, 0,
   0, 0, 0, 0, 0, 0, 0, 0, 0, 0, 0, 0, 0, 0, 0, 5, 0, 84, 97, 103, 32, 50, 0, 0, 0, 0, 0, 0, 0, 0, 0, 0, 0, 0, 0,
   0, 0, 0, 0, 5, 0, 84, 97, 103, 32, 51, 52, 0, 0, 0, 5, 32, 0, 0, 0, 0, 0, 0, 255, 2, 0, 0, 0, 0, 0, 0, 0, 0,
   32, 0, 32, 0, 120, 156, 237, 193, 1, 13, 0, 0, 0, 194, 160, 247, 79, 109, 15, 7, 20, 0, 0, 0, 240, 110, 16, 0,
   0, 1]

/-- tests/user_data.aseprite -/
def userData : Bytes :=
  [83, 2, 0, 0, 224, 165, 1, 0, 16, 0, 16, 0, 8, 0, 1, 0, 0, 0, 100, 0, 0, 0, 0, 0, 0, 0, 0, 0, 0, 0, 0, 0, 32, 0,
   1, 1, 0, 0, 0, 0, 16, 0, 16, 0, 0, 0, 0, 0, 0, 0, 0, 0, 0, 0, 0, 0, 0, 0, 0, 0, 0, 0, 0, 0, 0, 0, 0, 0, 0, 0,
   0, 0, 0, 0, 0, 0, 0, 0, 0, 0, 0, 0, 0, 0, 0, 0, 0, 0, 0, 0, 0, 0, 0, 0, 0, 0, 0, 0, 0, 0, 0, 0, 0, 0, 0, 0, 0,
   0, 0, 0, 0, 0, 0, 0, 0, 0, 0, 0, 0, 0, 0, 0, 0, 0, 0, 0, 0, 0, 211, 1, 0, 0, 250, 241, 12, 0, 100, 0, 0, 0, 12,
   0, 0, 0, 22, 0, 0, 0, 7, 32, 1, 0, 0, 0, 0, 0, 0, 0, 0, 0, 0, 0, 0, 0, 0, 0, 106, 0, 0, 0, 4, 0, 1, 0, 0, 32,
   0, 0, 0, 34, 32, 52, 69, 40, 60, 102, 57, 49, 143, 86, 59, 223, 113, 38, 217, 160, 102, 238, 195, 154, 251,
   242, 54, 153, 229, 80, 106, 190, 48, 55, 148, 110, 75, 105, 47, 82, 75, 36, 50, 60, 57, 63, 63, 116, 48, 96,
   130, 91, 110, 225, 99, 155, 255, 95, 205, 228, 203, 219, 252, 255, 255, 255, 155, 173, 183, 132, 126, 135, 105,
   106, 106, 89, 86, 82, 118, 66, 138, 172, 50, 50, 217, 87, 99, 215, 123, 186, 143, 151, 74, 138, 111, 48, 23, 0,
   0, 0, 32, 32, 1, 0, 0, 0, 11, 0, 115, 112, 114, 105, 116, 101, 95, 100, 97, 116, 97, 64, 0, 0, 0, 24, 32, 2, 0,
   0, 0, 0, 0, 0, 0, 0, 0, 0, 0, 0, 0, 0, 0, 0, 0, 0, 0, 0, 0, 0, 0, 0, 0, 0, 5, 0, 84, 97, 103, 32, 49, 0, 0, 0,
   0, 0, 0, 0, 0, 0, 0, 0, 0, 0, 0, 0, 0, 0, 5, 0, 84, 97, 103, 32, 50, 26, 0, 0, 0, 32, 32, 3, 0, 0, 0, 10, 0,
   116, 97, 103, 95, 100, 97, 116, 97, 95, 49, 0, 0, 0, 255, 26, 0, 0, 0, 32, 32, 3, 0, 0, 0, 10, 0, 116, 97, 103,
   95, 100, 97, 116, 97, 95, 50, 0, 0, 0, 255, 31, 0, 0, 0, 4, 32, 3, 0, 0, 0, 0, 0, 0, 0, 0, 0, 0, 0, 255, 0, 0,
   0, 7, 0, 76, 97, 121, 101, 114, 32, 49, 22, 0, 0, 0, 32, 32, 1, 0, 0, 0, 10, 0, 108, 97, 121, 101, 114, 95,
   100, 97, 116, 97, 47, 0, 0, 0, 34, 32, 1, 0, 0, 0, 0, 0, 0, 0, 0, 0, 0, 0, 7, 0, 83, 108, 105, 99, 101, 32, 49,
   0, 0, 0, 0, 1, 0, 0, 0, 1, 0, 0, 0, 14, 0, 0, 0, 14, 0, 0, 0, 26, 0, 0, 0, 32, 32, 3, 0, 0, 0, 10, 0, 115, 108,
   105, 99, 101, 95, 100, 97, 116, 97, 0, 0, 255, 255, 38, 0, 0, 0, 5, 32, 0, 0, 0, 0, 0, 0, 255, 2, 0, 0, 0, 0,
   0, 0, 0, 0, 16, 0, 16, 0, 120, 156, 99, 96, 24, 217, 0, 0, 1, 0, 0, 1, 20, 0, 0, 0, 32, 32, 1, 0, 0, 0, 8, 0,
   99, 101, 108, 95, 100, 97, 116, 97]

end Ase.Tests
