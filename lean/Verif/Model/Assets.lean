import Verif.Model.Inflate
import Verif.Model.Header
/-
internal/config/asset.go: the files built into the program.
-/
namespace JT808

/-- _configsBannerTxt, asset.go:82. -/
def configsBannerTxt : List UInt8 :=
  [0x1f, 0x8b, 0x08, 0x00, 0x00, 0x00, 0x00, 0x00, 0x00, 0xff, 0xa4, 0x4f, 0x41, 0xaa, 0x44, 0x21, 0x0c, 0xdb, 0x7b,
   0x8a, 0x2c, 0x15, 0x3e, 0xf4, 0x42, 0x42, 0xfe, 0x41, 0x7a, 0xf8, 0xa1, 0x4d, 0x2b, 0xe2, 0x72, 0x26, 0x60, 0x4c,
   0x3a, 0x69, 0x9c, 0x07, 0x81, 0x20, 0x01, 0xf2, 0xe5, 0xaf, 0x30, 0x74, 0x4d, 0x2e, 0x18, 0x67, 0x34, 0x2f, 0x0b,
   0xde, 0xd2, 0xf5, 0x62, 0xa1, 0x55, 0x8f, 0xce, 0xd5, 0xa1, 0xf2, 0x2a, 0x35, 0x44, 0x53, 0xb6, 0xa5, 0x96, 0x07,
   0x3c, 0x43, 0xa1, 0x83, 0xb0, 0x4b, 0xb9, 0x02, 0xed, 0x4f, 0x08, 0xff, 0xfa, 0x43, 0xa3, 0x3b, 0x8d, 0x75, 0x6e,
   0xce, 0xf8, 0x8c, 0xfa, 0x85, 0x7c, 0xd5, 0x00, 0x38, 0x3c, 0x45, 0xf9, 0xee, 0xbc, 0xd6, 0x86, 0x7e, 0xdb, 0x64,
   0x9c, 0x87, 0xf5, 0x15, 0x67, 0x60, 0x9a, 0xf8, 0xe3, 0x13, 0x9b, 0xfc, 0x43, 0xaf, 0x0d, 0x3b, 0xdb, 0xbf, 0xc0,
   0x78, 0xd7, 0x7c, 0x02, 0x00, 0x00, 0xff, 0xff, 0x45, 0xef, 0x01, 0xe6, 0xfd, 0x01, 0x00, 0x00]

/-- _configsDefaultYaml, asset.go:102. -/
def configsDefaultYaml : List UInt8 :=
  [0x1f, 0x8b, 0x08, 0x00, 0x00, 0x00, 0x00, 0x00, 0x00, 0xff, 0x6c, 0xd0, 0xc1, 0x4a, 0x03, 0x31, 0x10, 0x06, 0xe0,
   0xfb, 0x3e, 0xc5, 0x90, 0x7b, 0x77, 0xb7, 0x82, 0x18, 0x72, 0x6b, 0x69, 0x15, 0x44, 0xb0, 0x28, 0x3e, 0x40, 0x1a,
   0x67, 0xd3, 0xe8, 0x34, 0xb3, 0x24, 0xb3, 0xa5, 0xfa, 0xf4, 0x12, 0xa3, 0xb8, 0xa2, 0xc7, 0x7c, 0xff, 0x64, 0x7e,
   0x12, 0x62, 0x6f, 0x1a, 0x00, 0xc7, 0x31, 0x33, 0xe1, 0x36, 0xda, 0x3d, 0xa1, 0x01, 0x49, 0x13, 0x36, 0x00, 0x43,
   0xf8, 0x43, 0x63, 0x0a, 0x51, 0x56, 0xf9, 0x36, 0x73, 0x34, 0x30, 0x58, 0xca, 0x05, 0x89, 0xfd, 0x1d, 0x9e, 0x90,
   0x0c, 0xa8, 0xcd, 0x76, 0xfd, 0x74, 0xa3, 0xaa, 0x6d, 0x42, 0x42, 0x27, 0x9c, 0xde, 0x0c, 0xa8, 0xb6, 0x23, 0xf6,
   0xb9, 0xfb, 0x4a, 0xae, 0x43, 0x59, 0xa9, 0x5e, 0x44, 0xf7, 0x7a, 0x91, 0x31, 0x9d, 0x30, 0x2d, 0x3c, 0xb7, 0xc4,
   0xbe, 0x0c, 0x1c, 0xed, 0xf9, 0x31, 0xbc, 0xe3, 0xfd, 0xf0, 0xc0, 0x44, 0x21, 0x7a, 0x03, 0x97, 0x7d, 0xe5, 0xb5,
   0x75, 0xaf, 0xd3, 0x98, 0x67, 0xc9, 0xf2, 0x42, 0xd7, 0x68, 0xe5, 0xe7, 0x17, 0xae, 0x9a, 0xa6, 0xae, 0x2d, 0x8f,
   0x8b, 0xf6, 0xf8, 0x4f, 0x5b, 0x69, 0x1a, 0x39, 0x49, 0x99, 0x00, 0x10, 0x37, 0xee, 0xca, 0x01, 0x94, 0xee, 0x75,
   0xaf, 0x3e, 0x6d, 0x7a, 0x9e, 0xd9, 0xb2, 0xda, 0x41, 0xe4, 0x07, 0x7b, 0x5d, 0x70, 0x6f, 0x63, 0xac, 0x45, 0x00,
   0xf8, 0xfb, 0xb7, 0xbe, 0xc3, 0x9d, 0x95, 0x83, 0x01, 0xe5, 0x38, 0x0e, 0xc1, 0xe7, 0xae, 0x62, 0x2b, 0x67, 0x51,
   0xcd, 0x47, 0x00, 0x00, 0x00, 0xff, 0xff, 0x4d, 0x9b, 0x24, 0x20, 0x81, 0x01, 0x00, 0x00]

/-- _testClientConfigsDefaultYaml, asset.go:122. -/
def testClientConfigsDefaultYaml : List UInt8 :=
  [0x1f, 0x8b, 0x08, 0x00, 0x00, 0x00, 0x00, 0x00, 0x00, 0xff, 0x84, 0x94, 0xbd, 0x72, 0xe3, 0x36, 0x10, 0xc7, 0x7b,
   0x3d, 0x05, 0x86, 0xae, 0x25, 0x13, 0xb2, 0x64, 0x51, 0xe8, 0xe4, 0xcf, 0x71, 0xc6, 0x33, 0xf1, 0xd8, 0x4e, 0x8a,
   0x68, 0x5c, 0xc0, 0xe0, 0x0a, 0x46, 0x04, 0x61, 0x39, 0x00, 0xa8, 0x89, 0x12, 0xfb, 0x0d, 0xe2, 0x22, 0x45, 0xba,
   0xbb, 0xb9, 0xf6, 0x8a, 0x2b, 0xaf, 0xba, 0x8f, 0xb9, 0x97, 0xb1, 0xdd, 0xde, 0x2b, 0xdc, 0x90, 0x10, 0x75, 0x92,
   0x2d, 0xca, 0x25, 0xf7, 0xf7, 0xdf, 0xff, 0x02, 0x8b, 0x5d, 0x6a, 0x94, 0xac, 0x41, 0x88, 0x40, 0xe3, 0x50, 0xc3,
   0xa1, 0xe1, 0xd7, 0x1a, 0x18, 0xf1, 0x36, 0x87, 0x06, 0x21, 0x23, 0xf5, 0x22, 0x94, 0x59, 0x65, 0xfc, 0xc0, 0xfd,
   0xe2, 0xd0, 0x30, 0x32, 0xe2, 0xda, 0x15, 0x41, 0x8d, 0xf2, 0x14, 0xa6, 0xa0, 0x19, 0x89, 0x0e, 0x0e, 0xf7, 0x7e,
   0x3b, 0x8e, 0x42, 0xec, 0x40, 0x59, 0x10, 0x1e, 0xed, 0x8c, 0x91, 0xa8, 0xb5, 0xad, 0x51, 0xba, 0xed, 0x39, 0x39,
   0x52, 0x85, 0x65, 0xf4, 0xa7, 0x4f, 0xe2, 0xa4, 0x29, 0xb4, 0x02, 0xe3, 0x9b, 0x12, 0x5b, 0x1a, 0x65, 0x21, 0x98,
   0xf0, 0xbf, 0x2e, 0xd4, 0xdf, 0xf0, 0xeb, 0xe8, 0x1c, 0xb5, 0x56, 0x46, 0x32, 0xd2, 0x8d, 0x43, 0x78, 0x8f, 0x8b,
   0x71, 0x9e, 0xb9, 0x25, 0x42, 0xdb, 0x49, 0x40, 0x03, 0xb9, 0x9c, 0xd0, 0x6b, 0x04, 0xd7, 0xe2, 0x6e, 0x86, 0x4f,
   0xd6, 0x14, 0x8b, 0xc2, 0xad, 0x45, 0x6e, 0x2d, 0x18, 0x31, 0x63, 0x84, 0x86, 0x80, 0x29, 0x52, 0x08, 0xd9, 0x22,
   0x16, 0x26, 0xe8, 0x61, 0x90, 0xa6, 0x96, 0x91, 0x48, 0xa3, 0xe0, 0xfa, 0x06, 0x9d, 0x67, 0x49, 0x9c, 0xc4, 0xd1,
   0x3a, 0x09, 0xa5, 0xfd, 0x56, 0xbb, 0xd3, 0x6f, 0x75, 0xfa, 0x2d, 0x4a, 0x63, 0xd6, 0x5d, 0xe8, 0xd6, 0xaa, 0xba,
   0xb4, 0x45, 0x77, 0x77, 0x17, 0xaa, 0x14, 0xa6, 0x4a, 0x40, 0x28, 0xad, 0xd2, 0x73, 0x90, 0x8c, 0x44, 0xc3, 0xb8,
   0xd9, 0xbf, 0xfa, 0xa7, 0x77, 0x17, 0x5c, 0xd4, 0x04, 0xd4, 0x72, 0x9c, 0x76, 0xef, 0xaa, 0x63, 0x64, 0x37, 0x68,
   0x20, 0x30, 0xba, 0x13, 0x07, 0x9c, 0xcc, 0xe9, 0x2a, 0xa3, 0xed, 0x9d, 0x4e, 0x77, 0xb7, 0x97, 0x2c, 0x32, 0x35,
   0xf7, 0x73, 0xfa, 0xf0, 0xe9, 0xc3, 0x60, 0x38, 0x68, 0xfe, 0x51, 0x66, 0x57, 0xde, 0xcf, 0x78, 0x99, 0x3e, 0x27,
   0x16, 0x3d, 0x0a, 0xd4, 0xbf, 0x83, 0x75, 0xaa, 0x98, 0x85, 0xa8, 0x1d, 0xd3, 0x7e, 0x60, 0xde, 0x72, 0xe3, 0xce,
   0x0a, 0x01, 0x23, 0xd1, 0xe5, 0xfe, 0x59, 0x88, 0x8e, 0x01, 0x32, 0xae, 0xd5, 0x14, 0x18, 0x69, 0xc7, 0x64, 0x8b,
   0x3c, 0x7c, 0x7b, 0xfb, 0xf4, 0xf1, 0xf3, 0xe3, 0x7f, 0xef, 0x9f, 0xde, 0xbc, 0xfb, 0xfe, 0xe5, 0xdf, 0xc7, 0xfb,
   0xff, 0x1f, 0xbe, 0xde, 0xbb, 0xca, 0x7c, 0xaa, 0x8c, 0x80, 0x93, 0x95, 0x4e, 0xb4, 0xe7, 0x87, 0x12, 0xca, 0xcf,
   0x56, 0x49, 0x67, 0xf9, 0xb8, 0xfb, 0xa8, 0xd1, 0x56, 0xb4, 0x3c, 0x71, 0xd1, 0xad, 0xbb, 0x9f, 0x5d, 0x3e, 0x06,
   0x0c, 0x8d, 0x2e, 0x1e, 0xd5, 0x2b, 0x34, 0xe7, 0x90, 0xa1, 0xf5, 0x27, 0xc6, 0x83, 0x9d, 0x72, 0xcd, 0x08, 0x8d,
   0x4b, 0x2c, 0x2b, 0x1d, 0x21, 0x5c, 0x88, 0x0b, 0xcf, 0x7d, 0xee, 0x82, 0x6f, 0x7c, 0x4b, 0xa3, 0x39, 0xa9, 0x3c,
   0xea, 0x30, 0xf7, 0xca, 0xe7, 0x29, 0x5c, 0xce, 0x32, 0x58, 0x93, 0x6b, 0x64, 0x3d, 0xc5, 0x0c, 0x2c, 0xf7, 0xca,
   0xc8, 0x1a, 0x6b, 0x09, 0x78, 0x68, 0x84, 0x9d, 0x65, 0x9b, 0xca, 0x23, 0x4f, 0x6b, 0xd0, 0x51, 0x0e, 0xfa, 0x62,
   0xe6, 0x3c, 0x4c, 0x6a, 0x04, 0x03, 0xed, 0xc1, 0x1a, 0xee, 0xd1, 0x6e, 0x94, 0x1d, 0x20, 0xda, 0x53, 0x14, 0x63,
   0xa8, 0x2b, 0x34, 0xb2, 0x68, 0x7c, 0xa1, 0xaa, 0xe1, 0x13, 0x95, 0x6e, 0xa0, 0xd7, 0x5c, 0x8c, 0x37, 0xe0, 0xd4,
   0xaa, 0x29, 0xd8, 0x0d, 0x02, 0x91, 0x3b, 0x8f, 0x93, 0x0d, 0x02, 0x99, 0xb9, 0xd3, 0xcd, 0x6f, 0x78, 0x0d, 0x2a,
   0xc5, 0xfc, 0x15, 0x91, 0xd4, 0x68, 0xb8, 0x7b, 0xcd, 0x4a, 0x72, 0xad, 0x34, 0xe0, 0x2b, 0xaa, 0xe2, 0x52, 0x75,
   0xef, 0x5e, 0xcd, 0x1b, 0x7b, 0x36, 0x60, 0x8b, 0x75, 0x48, 0xae, 0xca, 0x9d, 0xb8, 0xed, 0xc7, 0x2f, 0xc6, 0x6c,
   0x75, 0x99, 0x6e, 0xe9, 0x30, 0x6e, 0xf6, 0xe6, 0x6a, 0x9a, 0x2c, 0xe4, 0x5c, 0xfb, 0x17, 0xea, 0x6a, 0xc1, 0xca,
   0x76, 0x57, 0xa5, 0x5d, 0x06, 0xb0, 0x76, 0x41, 0x09, 0x49, 0xcb, 0x3f, 0x7f, 0xb9, 0x5a, 0x2b, 0x25, 0x87, 0xb4,
   0xd9, 0xbe, 0x5a, 0x7c, 0xed, 0x0c, 0xe3, 0x66, 0x37, 0x7c, 0x46, 0x8d, 0x1f, 0x01, 0x00, 0x00, 0xff, 0xff, 0xc7,
   0xcb, 0xf6, 0x42, 0x89, 0x06, 0x00, 0x00]

/-- asset with its bindataFileInfo, asset.go:40-50, without the time of the last change. -/
structure Asset where
  bytes : List UInt8
  name : Str
  size : Nat
  mode : Nat
  deriving DecidableEq

/-- An entry of `_bindata`: what a function like configsBannerTxt, asset.go:91-100, does when it is called. -/
def loadAsset (blob : List UInt8) (name : Str) (size mode : Nat) : Option Asset :=
  (bindataRead blob).map fun b => ⟨b, name, size, mode⟩

/-- The bytes of a text of ASCII characters. -/
def ascii (s : String) : Str := s.toList.map fun c => UInt8.ofNat c.toNat

/-- configsBannerTxt, asset.go:91-100. -/
def bannerAsset : Option Asset := loadAsset configsBannerTxt (ascii "configs/banner.txt") 509 420
/-- configsDefaultYaml, asset.go:111-120. -/
def serverAsset : Option Asset := loadAsset configsDefaultYaml (ascii "configs/default.yaml") 385 420
/-- testClientConfigsDefaultYaml, asset.go:131-140. -/
def clientAsset : Option Asset :=
  loadAsset testClientConfigsDefaultYaml (ascii "test/client/configs/default.yaml") 1673 420

/-- `_bindata`, asset.go:193-197. -/
def bindata : List (Str × Option Asset) :=
  [(ascii "configs/banner.txt", bannerAsset), (ascii "configs/default.yaml", serverAsset),
   (ascii "test/client/configs/default.yaml", clientAsset)]

/-- `strings.Replace(name, "\\", "/", -1)`, asset.go:146, 172, 216. -/
def canonical (name : Str) : Str := name.map fun b => if b = 0x5c then 0x2f else b

/-- A lookup in `_bindata` and the call of what is there, asset.go:146-153, 172-179. -/
def findAsset (name : Str) : Option Asset := (bindata.lookup (canonical name)).getD none

/-- Asset, asset.go:145-155; `none` is an error. -/
def assetBytes (name : Str) : Option (List UInt8) := (findAsset name).map (·.bytes)

/-- AssetInfo, asset.go:171-181: name, size and mode. -/
def assetInfo (name : Str) : Option (Str × Nat × Nat) := (findAsset name).map fun a => (a.name, a.size, a.mode)

/-- AssetNames, asset.go:184-190; the order is that of the map, which is any. -/
def assetNames : List Str := bindata.map (·.1)

/-- bintree, asset.go:234-237: a file or a directory.  In `_bintree` no node is both, and no file has children. -/
inductive BinTree where
  | file (a : Option Asset)
  | dir (children : List (Str × BinTree))

/-- `_bintree`, asset.go:239-251. -/
def binTree : BinTree :=
  .dir [(ascii "configs", .dir [(ascii "banner.txt", .file bannerAsset), (ascii "default.yaml", .file serverAsset)]),
    (ascii "test", .dir [(ascii "client", .dir [(ascii "configs", .dir [(ascii "default.yaml", .file clientAsset)])])])]

/-- `node.Children[p]`, asset.go:219; a file has no children. -/
def BinTree.child (t : BinTree) (p : Str) : Option BinTree :=
  match t with
  | .file _ => none
  | .dir cs => cs.lookup p

/-- The loop of asset.go:218-223. -/
def BinTree.down (t : BinTree) : List Str → Option BinTree
  | [] => some t
  | p :: ps =>
    match t.child p with
    | none => none
    | some t => t.down ps

/-- `strings.Split(s, "/")`, asset.go:217. -/
def splitSlash : Str → List Str
  | [] => [[]]
  | b :: bs =>
    if b = 0x2f then [] :: splitSlash bs
    else
      match splitSlash bs with
      | [] => [[b]]
      | s :: ss => (b :: s) :: ss

/-- AssetDir, asset.go:212-232; the order of the names is any. -/
def assetDir (name : Str) : Option (List Str) :=
  match (if name = [] then some binTree else binTree.down (splitSlash (canonical name))) with
  | some (.dir cs) => some (cs.map (·.1))
  | _ => none

end JT808
