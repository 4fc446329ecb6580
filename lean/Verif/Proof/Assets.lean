import Verif.Model.Assets
import Verif.Model.Yaml
import Verif.Spec.Assets
import Verif.Props.Startup
/-
The bytes of the files that are built into the program; only used to compare them once.
-/
namespace JT808
open Spec

def bannerBytes : List UInt8 :=
  [0x20, 0x20, 0x20, 0x20, 0x20, 0x20, 0x20, 0x5f, 0x20, 0x5f, 0x5f, 0x20, 0x20, 0x5f, 0x5f, 0x5f, 0x5f, 0x20, 0x20,
   0x5f, 0x5f, 0x5f, 0x5f, 0x20, 0x20, 0x5f, 0x5f, 0x5f, 0x5f, 0x20, 0x20, 0x20, 0x20, 0x20, 0x20, 0x20, 0x20, 0x20,
   0x20, 0x20, 0x20, 0x20, 0x20, 0x20, 0x20, 0x20, 0x20, 0x20, 0x20, 0x20, 0x20, 0x20, 0x20, 0x20, 0x20, 0x20, 0x20,
   0x20, 0x20, 0x20, 0x20, 0x20, 0x20, 0x20, 0x20, 0x20, 0x20, 0x20, 0x20, 0x20, 0x20, 0x20, 0x20, 0x20, 0x20, 0x20,
   0x20, 0x20, 0x20, 0x20, 0x20, 0x20, 0x20, 0x20, 0x0a, 0x20, 0x20, 0x20, 0x20, 0x20, 0x20, 0x28, 0x5f, 0x29, 0x20,
   0x2f, 0x5f, 0x28, 0x20, 0x5f, 0x5f, 0x20, 0x29, 0x2f, 0x20, 0x5f, 0x5f, 0x20, 0x5c, 0x28, 0x20, 0x5f, 0x5f, 0x20,
   0x29, 0x20, 0x20, 0x20, 0x20, 0x20, 0x20, 0x5f, 0x5f, 0x5f, 0x5f, 0x5f, 0x5f, 0x5f, 0x5f, 0x20, 0x20, 0x5f, 0x5f,
   0x5f, 0x5f, 0x5f, 0x5f, 0x20, 0x20, 0x20, 0x5f, 0x5f, 0x5f, 0x5f, 0x5f, 0x20, 0x20, 0x5f, 0x5f, 0x5f, 0x5f, 0x5f,
   0x20, 0x20, 0x20, 0x20, 0x20, 0x20, 0x5f, 0x5f, 0x5f, 0x5f, 0x20, 0x5f, 0x5f, 0x5f, 0x5f, 0x5f, 0x20, 0x0a, 0x20,
   0x20, 0x20, 0x20, 0x20, 0x2f, 0x20, 0x2f, 0x20, 0x5f, 0x5f, 0x2f, 0x20, 0x5f, 0x5f, 0x20, 0x20, 0x2f, 0x20, 0x2f,
   0x20, 0x2f, 0x20, 0x2f, 0x20, 0x5f, 0x5f, 0x20, 0x20, 0x7c, 0x5f, 0x5f, 0x5f, 0x5f, 0x5f, 0x2f, 0x20, 0x5f, 0x5f,
   0x5f, 0x2f, 0x20, 0x5f, 0x20, 0x5c, 0x2f, 0x20, 0x5f, 0x5f, 0x5f, 0x2f, 0x20, 0x7c, 0x20, 0x2f, 0x20, 0x2f, 0x20,
   0x5f, 0x20, 0x5c, 0x2f, 0x20, 0x5f, 0x5f, 0x5f, 0x2f, 0x5f, 0x5f, 0x5f, 0x5f, 0x5f, 0x2f, 0x20, 0x5f, 0x5f, 0x20,
   0x60, 0x2f, 0x20, 0x5f, 0x5f, 0x20, 0x5c, 0x0a, 0x20, 0x20, 0x20, 0x20, 0x2f, 0x20, 0x2f, 0x20, 0x2f, 0x5f, 0x2f,
   0x20, 0x2f, 0x5f, 0x2f, 0x20, 0x2f, 0x20, 0x2f, 0x5f, 0x2f, 0x20, 0x2f, 0x20, 0x2f, 0x5f, 0x2f, 0x20, 0x2f, 0x5f,
   0x5f, 0x5f, 0x5f, 0x5f, 0x28, 0x5f, 0x5f, 0x20, 0x20, 0x29, 0x20, 0x20, 0x5f, 0x5f, 0x2f, 0x20, 0x2f, 0x20, 0x20,
   0x20, 0x7c, 0x20, 0x7c, 0x2f, 0x20, 0x2f, 0x20, 0x20, 0x5f, 0x5f, 0x2f, 0x20, 0x2f, 0x20, 0x20, 0x2f, 0x5f, 0x5f,
   0x5f, 0x5f, 0x5f, 0x2f, 0x20, 0x2f, 0x5f, 0x2f, 0x20, 0x2f, 0x20, 0x2f, 0x5f, 0x2f, 0x20, 0x2f, 0x0a, 0x20, 0x5f,
   0x5f, 0x2f, 0x20, 0x2f, 0x5c, 0x5f, 0x5f, 0x2f, 0x5c, 0x5f, 0x5f, 0x5f, 0x5f, 0x2f, 0x5c, 0x5f, 0x5f, 0x5f, 0x5f,
   0x2f, 0x5c, 0x5f, 0x5f, 0x5f, 0x5f, 0x2f, 0x20, 0x20, 0x20, 0x20, 0x20, 0x2f, 0x5f, 0x5f, 0x5f, 0x5f, 0x2f, 0x5c,
   0x5f, 0x5f, 0x5f, 0x2f, 0x5f, 0x2f, 0x20, 0x20, 0x20, 0x20, 0x7c, 0x5f, 0x5f, 0x5f, 0x2f, 0x5c, 0x5f, 0x5f, 0x5f,
   0x2f, 0x5f, 0x2f, 0x20, 0x20, 0x20, 0x20, 0x20, 0x20, 0x20, 0x20, 0x20, 0x5c, 0x5f, 0x5f, 0x2c, 0x20, 0x2f, 0x5c,
   0x5f, 0x5f, 0x5f, 0x5f, 0x2f, 0x20, 0x0a, 0x2f, 0x5f, 0x5f, 0x5f, 0x2f, 0x20, 0x20, 0x20, 0x20, 0x20, 0x20, 0x20,
   0x20, 0x20, 0x20, 0x20, 0x20, 0x20, 0x20, 0x20, 0x20, 0x20, 0x20, 0x20, 0x20, 0x20, 0x20, 0x20, 0x20, 0x20, 0x20,
   0x20, 0x20, 0x20, 0x20, 0x20, 0x20, 0x20, 0x20, 0x20, 0x20, 0x20, 0x20, 0x20, 0x20, 0x20, 0x20, 0x20, 0x20, 0x20,
   0x20, 0x20, 0x20, 0x20, 0x20, 0x20, 0x20, 0x20, 0x20, 0x20, 0x20, 0x20, 0x20, 0x20, 0x20, 0x20, 0x20, 0x20, 0x20,
   0x20, 0x2f, 0x5f, 0x5f, 0x5f, 0x5f, 0x2f, 0x20, 0x20, 0x20, 0x20, 0x20, 0x20, 0x20, 0x20]

set_option maxRecDepth 100000 in
theorem banner_file : (bannerFile.flatMap encoded) = bannerBytes := by decide +kernel

set_option maxRecDepth 100000 in
theorem banner_data : bannerAsset = some ⟨bannerBytes, ascii "configs/banner.txt", 509, 420⟩ := by decide +kernel

def serverBytes : List UInt8 :=
  [0x6c, 0x6f, 0x67, 0x3a, 0x0a, 0x20, 0x20, 0x63, 0x6f, 0x6e, 0x73, 0x6f, 0x6c, 0x65, 0x45, 0x6e, 0x61, 0x62, 0x6c,
   0x65, 0x3a, 0x20, 0x74, 0x72, 0x75, 0x65, 0x0a, 0x20, 0x20, 0x66, 0x69, 0x6c, 0x65, 0x45, 0x6e, 0x61, 0x62, 0x6c,
   0x65, 0x3a, 0x20, 0x74, 0x72, 0x75, 0x65, 0x0a, 0x20, 0x20, 0x70, 0x72, 0x69, 0x6e, 0x74, 0x41, 0x73, 0x4a, 0x73,
   0x6f, 0x6e, 0x3a, 0x20, 0x66, 0x61, 0x6c, 0x73, 0x65, 0x0a, 0x20, 0x20, 0x6c, 0x6f, 0x67, 0x4c, 0x65, 0x76, 0x65,
   0x6c, 0x3a, 0x20, 0x22, 0x44, 0x45, 0x42, 0x55, 0x47, 0x22, 0x0a, 0x20, 0x20, 0x6c, 0x6f, 0x67, 0x44, 0x69, 0x72,
   0x65, 0x63, 0x74, 0x6f, 0x72, 0x79, 0x3a, 0x20, 0x22, 0x2e, 0x2f, 0x6c, 0x6f, 0x67, 0x73, 0x2f, 0x22, 0x0a, 0x20,
   0x20, 0x6c, 0x6f, 0x67, 0x46, 0x69, 0x6c, 0x65, 0x3a, 0x20, 0x22, 0x6a, 0x74, 0x38, 0x30, 0x38, 0x2d, 0x73, 0x65,
   0x72, 0x76, 0x65, 0x72, 0x2d, 0x67, 0x6f, 0x2e, 0x6c, 0x6f, 0x67, 0x22, 0x0a, 0x20, 0x20, 0x6d, 0x61, 0x78, 0x53,
   0x69, 0x7a, 0x65, 0x4f, 0x66, 0x52, 0x6f, 0x6c, 0x6c, 0x69, 0x6e, 0x67, 0x3a, 0x20, 0x35, 0x30, 0x0a, 0x20, 0x20,
   0x6d, 0x61, 0x78, 0x42, 0x61, 0x63, 0x6b, 0x75, 0x70, 0x73, 0x4f, 0x66, 0x52, 0x6f, 0x6c, 0x6c, 0x69, 0x6e, 0x67,
   0x3a, 0x20, 0x31, 0x32, 0x38, 0x0a, 0x20, 0x20, 0x6d, 0x61, 0x78, 0x41, 0x67, 0x65, 0x4f, 0x66, 0x52, 0x6f, 0x6c,
   0x6c, 0x69, 0x6e, 0x67, 0x3a, 0x20, 0x37, 0x0a, 0x0a, 0x73, 0x65, 0x72, 0x76, 0x65, 0x72, 0x3a, 0x0a, 0x20, 0x20,
   0x6e, 0x61, 0x6d, 0x65, 0x3a, 0x20, 0x22, 0x6a, 0x74, 0x38, 0x30, 0x38, 0x2d, 0x73, 0x65, 0x72, 0x76, 0x65, 0x72,
   0x2d, 0x67, 0x6f, 0x22, 0x0a, 0x20, 0x20, 0x70, 0x6f, 0x72, 0x74, 0x3a, 0x0a, 0x20, 0x20, 0x20, 0x20, 0x74, 0x63,
   0x70, 0x50, 0x6f, 0x72, 0x74, 0x3a, 0x20, 0x22, 0x38, 0x30, 0x38, 0x30, 0x22, 0x0a, 0x20, 0x20, 0x20, 0x20, 0x75,
   0x64, 0x70, 0x50, 0x6f, 0x72, 0x74, 0x3a, 0x20, 0x22, 0x38, 0x30, 0x38, 0x31, 0x22, 0x0a, 0x20, 0x20, 0x20, 0x20,
   0x68, 0x74, 0x74, 0x70, 0x50, 0x6f, 0x72, 0x74, 0x3a, 0x20, 0x22, 0x38, 0x30, 0x30, 0x38, 0x22, 0x0a, 0x20, 0x20,
   0x62, 0x61, 0x6e, 0x6e, 0x65, 0x72, 0x3a, 0x0a, 0x20, 0x20, 0x20, 0x20, 0x65, 0x6e, 0x61, 0x62, 0x6c, 0x65, 0x3a,
   0x20, 0x74, 0x72, 0x75, 0x65, 0x0a, 0x20, 0x20, 0x20, 0x20, 0x62, 0x61, 0x6e, 0x6e, 0x65, 0x72, 0x50, 0x61, 0x74,
   0x68, 0x3a, 0x20, 0x22, 0x63, 0x6f, 0x6e, 0x66, 0x69, 0x67, 0x73, 0x2f, 0x62, 0x61, 0x6e, 0x6e, 0x65, 0x72, 0x2e,
   0x74, 0x78, 0x74, 0x22, 0x0a]

set_option maxRecDepth 100000 in
theorem server_file : (serverFile.flatMap encoded) = serverBytes := by decide +kernel

set_option maxRecDepth 100000 in
theorem server_data : serverAsset = some ⟨serverBytes, ascii "configs/default.yaml", 385, 420⟩ := by decide +kernel

def clientBytes : List UInt8 :=
  [0x6c, 0x6f, 0x67, 0x3a, 0x0a, 0x20, 0x20, 0x63, 0x6f, 0x6e, 0x73, 0x6f, 0x6c, 0x65, 0x45, 0x6e, 0x61, 0x62, 0x6c,
   0x65, 0x3a, 0x20, 0x74, 0x72, 0x75, 0x65, 0x0a, 0x20, 0x20, 0x66, 0x69, 0x6c, 0x65, 0x45, 0x6e, 0x61, 0x62, 0x6c,
   0x65, 0x3a, 0x20, 0x74, 0x72, 0x75, 0x65, 0x0a, 0x20, 0x20, 0x70, 0x72, 0x69, 0x6e, 0x74, 0x41, 0x73, 0x4a, 0x73,
   0x6f, 0x6e, 0x3a, 0x20, 0x66, 0x61, 0x6c, 0x73, 0x65, 0x0a, 0x20, 0x20, 0x6c, 0x6f, 0x67, 0x4c, 0x65, 0x76, 0x65,
   0x6c, 0x3a, 0x20, 0x22, 0x44, 0x45, 0x42, 0x55, 0x47, 0x22, 0x0a, 0x20, 0x20, 0x6c, 0x6f, 0x67, 0x44, 0x69, 0x72,
   0x65, 0x63, 0x74, 0x6f, 0x72, 0x79, 0x3a, 0x20, 0x22, 0x2e, 0x2f, 0x6c, 0x6f, 0x67, 0x73, 0x2f, 0x22, 0x0a, 0x20,
   0x20, 0x6c, 0x6f, 0x67, 0x46, 0x69, 0x6c, 0x65, 0x3a, 0x20, 0x22, 0x6a, 0x74, 0x38, 0x30, 0x38, 0x2d, 0x63, 0x6c,
   0x69, 0x65, 0x6e, 0x74, 0x2d, 0x67, 0x6f, 0x2e, 0x6c, 0x6f, 0x67, 0x22, 0x0a, 0x20, 0x20, 0x6d, 0x61, 0x78, 0x53,
   0x69, 0x7a, 0x65, 0x4f, 0x66, 0x52, 0x6f, 0x6c, 0x6c, 0x69, 0x6e, 0x67, 0x3a, 0x20, 0x35, 0x30, 0x0a, 0x20, 0x20,
   0x6d, 0x61, 0x78, 0x42, 0x61, 0x63, 0x6b, 0x75, 0x70, 0x73, 0x4f, 0x66, 0x52, 0x6f, 0x6c, 0x6c, 0x69, 0x6e, 0x67,
   0x3a, 0x20, 0x31, 0x32, 0x38, 0x0a, 0x20, 0x20, 0x6d, 0x61, 0x78, 0x41, 0x67, 0x65, 0x4f, 0x66, 0x52, 0x6f, 0x6c,
   0x6c, 0x69, 0x6e, 0x67, 0x3a, 0x20, 0x37, 0x0a, 0x63, 0x6c, 0x69, 0x65, 0x6e, 0x74, 0x3a, 0x0a, 0x20, 0x20, 0x6e,
   0x61, 0x6d, 0x65, 0x3a, 0x20, 0x22, 0x6a, 0x74, 0x38, 0x30, 0x38, 0x2d, 0x63, 0x6c, 0x69, 0x65, 0x6e, 0x74, 0x2d,
   0x67, 0x6f, 0x22, 0x0a, 0x20, 0x20, 0x63, 0x6f, 0x6e, 0x63, 0x75, 0x72, 0x72, 0x65, 0x6e, 0x63, 0x79, 0x3a, 0x20,
   0x31, 0x0a, 0x20, 0x20, 0x63, 0x6f, 0x6e, 0x6e, 0x3a, 0x0a, 0x20, 0x20, 0x20, 0x20, 0x23, 0x20, 0x72, 0x65, 0x6d,
   0x6f, 0x74, 0x65, 0x41, 0x64, 0x64, 0x72, 0x3a, 0x20, 0x22, 0x6c, 0x6f, 0x63, 0x61, 0x6c, 0x68, 0x6f, 0x73, 0x74,
   0x3a, 0x38, 0x30, 0x38, 0x30, 0x22, 0x0a, 0x20, 0x20, 0x20, 0x20, 0x23, 0x20, 0x72, 0x65, 0x6d, 0x6f, 0x74, 0x65,
   0x41, 0x64, 0x64, 0x72, 0x3a, 0x20, 0x22, 0x31, 0x31, 0x39, 0x2e, 0x32, 0x34, 0x39, 0x2e, 0x34, 0x39, 0x2e, 0x31,
   0x31, 0x30, 0x3a, 0x35, 0x30, 0x38, 0x30, 0x22, 0x0a, 0x20, 0x20, 0x20, 0x20, 0x72, 0x65, 0x6d, 0x6f, 0x74, 0x65,
   0x41, 0x64, 0x64, 0x72, 0x3a, 0x20, 0x22, 0x31, 0x31, 0x39, 0x2e, 0x32, 0x34, 0x39, 0x2e, 0x35, 0x31, 0x2e, 0x31,
   0x36, 0x36, 0x3a, 0x35, 0x30, 0x38, 0x30, 0x22, 0x0a, 0x20, 0x20, 0x64, 0x65, 0x76, 0x69, 0x63, 0x65, 0x3a, 0x0a,
   0x20, 0x20, 0x20, 0x20, 0x69, 0x64, 0x52, 0x65, 0x67, 0x3a, 0x20, 0x22, 0x5b, 0x30, 0x2d, 0x39, 0x5d, 0x7b, 0x37,
   0x7d, 0x22, 0x0a, 0x20, 0x20, 0x20, 0x20, 0x69, 0x6d, 0x65, 0x69, 0x52, 0x65, 0x67, 0x3a, 0x20, 0x22, 0x5b, 0x30,
   0x2d, 0x39, 0x5d, 0x7b, 0x31, 0x35, 0x7d, 0x22, 0x0a, 0x20, 0x20, 0x20, 0x20, 0x23, 0x20, 0x70, 0x68, 0x6f, 0x6e,
   0x65, 0x52, 0x65, 0x67, 0x3a, 0x20, 0x22, 0x31, 0x33, 0x30, 0x5b, 0x30, 0x2d, 0x39, 0x5d, 0x7b, 0x38, 0x7d, 0x22,
   0x0a, 0x20, 0x20, 0x20, 0x20, 0x70, 0x68, 0x6f, 0x6e, 0x65, 0x52, 0x65, 0x67, 0x3a, 0x20, 0x22, 0x31, 0x33, 0x30,
   0x31, 0x32, 0x33, 0x34, 0x35, 0x36, 0x37, 0x38, 0x22, 0x0a, 0x20, 0x20, 0x20, 0x20, 0x23, 0x20, 0x70, 0x6c, 0x61,
   0x74, 0x65, 0x52, 0x65, 0x67, 0x3a, 0x20, 0x22, 0xe4, 0xba, 0xac, 0x41, 0x5b, 0x41, 0x2d, 0x5a, 0x30, 0x2d, 0x39,
   0x5d, 0x7b, 0x35, 0x7d, 0x22, 0x0a, 0x20, 0x20, 0x20, 0x20, 0x70, 0x6c, 0x61, 0x74, 0x65, 0x52, 0x65, 0x67, 0x3a,
   0x20, 0x22, 0xe4, 0xba, 0xac, 0x41, 0x31, 0x32, 0x33, 0x34, 0x35, 0x22, 0x0a, 0x20, 0x20, 0x20, 0x20, 0x70, 0x72,
   0x6f, 0x74, 0x6f, 0x63, 0x6f, 0x6c, 0x56, 0x65, 0x72, 0x73, 0x69, 0x6f, 0x6e, 0x3a, 0x20, 0x22, 0x32, 0x30, 0x31,
   0x39, 0x22, 0x0a, 0x20, 0x20, 0x20, 0x20, 0x74, 0x72, 0x61, 0x6e, 0x73, 0x50, 0x72, 0x6f, 0x74, 0x6f, 0x3a, 0x20,
   0x22, 0x54, 0x43, 0x50, 0x22, 0x0a, 0x20, 0x20, 0x20, 0x20, 0x6b, 0x65, 0x65, 0x70, 0x61, 0x6c, 0x69, 0x76, 0x65,
   0x3a, 0x20, 0x32, 0x30, 0x20, 0x23, 0x20, 0xe4, 0xbf, 0x9d, 0xe6, 0xb4, 0xbb, 0xe5, 0x91, 0xa8, 0xe6, 0x9c, 0x9f,
   0xef, 0xbc, 0x8c, 0xe5, 0x8d, 0x95, 0xe4, 0xbd, 0x8d, 0x73, 0x0a, 0x20, 0x20, 0x20, 0x20, 0x70, 0x72, 0x6f, 0x76,
   0x69, 0x6e, 0x63, 0x65, 0x49, 0x64, 0x52, 0x65, 0x67, 0x3a, 0x20, 0x22, 0x5b, 0x30, 0x2d, 0x39, 0x5d, 0x7b, 0x32,
   0x7d, 0x22, 0x0a, 0x20, 0x20, 0x20, 0x20, 0x63, 0x69, 0x74, 0x79, 0x49, 0x64, 0x52, 0x65, 0x67, 0x3a, 0x20, 0x22,
   0x5b, 0x30, 0x2d, 0x39, 0x5d, 0x7b, 0x34, 0x7d, 0x22, 0x0a, 0x20, 0x20, 0x20, 0x20, 0x70, 0x6c, 0x61, 0x74, 0x65,
   0x43, 0x6f, 0x6c, 0x6f, 0x72, 0x52, 0x65, 0x67, 0x3a, 0x20, 0x22, 0x5b, 0x30, 0x31, 0x32, 0x33, 0x34, 0x35, 0x39,
   0x5d, 0x7b, 0x31, 0x7d, 0x22, 0x0a, 0x20, 0x20, 0x64, 0x65, 0x76, 0x69, 0x63, 0x65, 0x47, 0x65, 0x6f, 0x3a, 0x0a,
   0x20, 0x20, 0x20, 0x20, 0x6c, 0x6f, 0x63, 0x61, 0x74, 0x69, 0x6f, 0x6e, 0x52, 0x65, 0x70, 0x6f, 0x72, 0x74, 0x49,
   0x6e, 0x74, 0x65, 0x72, 0x76, 0x61, 0x6c, 0x3a, 0x20, 0x31, 0x30, 0x0a, 0x20, 0x20, 0x20, 0x20, 0x67, 0x65, 0x6f,
   0x3a, 0x0a, 0x20, 0x20, 0x20, 0x20, 0x20, 0x20, 0x61, 0x63, 0x63, 0x53, 0x74, 0x61, 0x74, 0x75, 0x73, 0x52, 0x65,
   0x67, 0x3a, 0x20, 0x22, 0x30, 0x7c, 0x31, 0x22, 0x0a, 0x20, 0x20, 0x20, 0x20, 0x20, 0x20, 0x6c, 0x6f, 0x63, 0x61,
   0x74, 0x69, 0x6f, 0x6e, 0x53, 0x74, 0x61, 0x74, 0x75, 0x73, 0x52, 0x65, 0x67, 0x3a, 0x20, 0x22, 0x30, 0x7c, 0x31,
   0x22, 0x0a, 0x20, 0x20, 0x20, 0x20, 0x20, 0x20, 0x6c, 0x61, 0x74, 0x69, 0x74, 0x75, 0x64, 0x65, 0x54, 0x79, 0x70,
   0x65, 0x52, 0x65, 0x67, 0x3a, 0x20, 0x22, 0x30, 0x7c, 0x31, 0x22, 0x0a, 0x20, 0x20, 0x20, 0x20, 0x20, 0x20, 0x6c,
   0x6f, 0x6e, 0x67, 0x69, 0x74, 0x75, 0x64, 0x65, 0x54, 0x79, 0x70, 0x65, 0x52, 0x65, 0x67, 0x3a, 0x20, 0x22, 0x30,
   0x7c, 0x31, 0x22, 0x0a, 0x20, 0x20, 0x20, 0x20, 0x20, 0x20, 0x6f, 0x70, 0x65, 0x72, 0x61, 0x74, 0x69, 0x6e, 0x67,
   0x53, 0x74, 0x61, 0x74, 0x75, 0x73, 0x52, 0x65, 0x67, 0x3a, 0x20, 0x22, 0x30, 0x7c, 0x31, 0x22, 0x0a, 0x20, 0x20,
   0x20, 0x20, 0x20, 0x20, 0x67, 0x65, 0x6f, 0x45, 0x6e, 0x63, 0x72, 0x79, 0x70, 0x74, 0x69, 0x6f, 0x6e, 0x53, 0x74,
   0x61, 0x74, 0x75, 0x73, 0x52, 0x65, 0x67, 0x3a, 0x20, 0x22, 0x30, 0x7c, 0x31, 0x22, 0x0a, 0x20, 0x20, 0x20, 0x20,
   0x20, 0x20, 0x6c, 0x6f, 0x61, 0x64, 0x53, 0x74, 0x61, 0x74, 0x75, 0x73, 0x52, 0x65, 0x67, 0x3a, 0x20, 0x22, 0x30,
   0x7c, 0x31, 0x22, 0x0a, 0x20, 0x20, 0x20, 0x20, 0x20, 0x20, 0x46, 0x75, 0x65, 0x6c, 0x53, 0x79, 0x73, 0x74, 0x65,
   0x6d, 0x53, 0x74, 0x61, 0x74, 0x75, 0x73, 0x52, 0x65, 0x67, 0x3a, 0x20, 0x22, 0x30, 0x7c, 0x31, 0x22, 0x0a, 0x20,
   0x20, 0x20, 0x20, 0x20, 0x20, 0x41, 0x6c, 0x74, 0x65, 0x72, 0x6e, 0x61, 0x74, 0x6f, 0x72, 0x53, 0x79, 0x73, 0x74,
   0x65, 0x6d, 0x53, 0x74, 0x61, 0x74, 0x75, 0x73, 0x52, 0x65, 0x67, 0x3a, 0x20, 0x22, 0x30, 0x7c, 0x31, 0x22, 0x0a,
   0x20, 0x20, 0x20, 0x20, 0x20, 0x20, 0x44, 0x6f, 0x6f, 0x72, 0x4c, 0x6f, 0x63, 0x6b, 0x65, 0x64, 0x53, 0x74, 0x61,
   0x74, 0x75, 0x73, 0x52, 0x65, 0x67, 0x3a, 0x20, 0x22, 0x30, 0x7c, 0x31, 0x22, 0x0a, 0x20, 0x20, 0x20, 0x20, 0x20,
   0x20, 0x66, 0x72, 0x6f, 0x6e, 0x74, 0x44, 0x6f, 0x6f, 0x72, 0x53, 0x74, 0x61, 0x74, 0x75, 0x73, 0x52, 0x65, 0x67,
   0x3a, 0x20, 0x22, 0x30, 0x7c, 0x31, 0x22, 0x0a, 0x20, 0x20, 0x20, 0x20, 0x20, 0x20, 0x6d, 0x69, 0x64, 0x44, 0x6f,
   0x6f, 0x72, 0x53, 0x74, 0x61, 0x74, 0x75, 0x73, 0x52, 0x65, 0x67, 0x3a, 0x20, 0x22, 0x30, 0x7c, 0x31, 0x22, 0x0a,
   0x20, 0x20, 0x20, 0x20, 0x20, 0x20, 0x62, 0x61, 0x63, 0x6b, 0x44, 0x6f, 0x6f, 0x72, 0x53, 0x74, 0x61, 0x74, 0x75,
   0x73, 0x52, 0x65, 0x67, 0x3a, 0x20, 0x22, 0x30, 0x7c, 0x31, 0x22, 0x0a, 0x20, 0x20, 0x20, 0x20, 0x20, 0x20, 0x64,
   0x72, 0x69, 0x76, 0x65, 0x72, 0x44, 0x6f, 0x6f, 0x72, 0x53, 0x74, 0x61, 0x74, 0x75, 0x73, 0x52, 0x65, 0x67, 0x3a,
   0x20, 0x22, 0x30, 0x7c, 0x31, 0x22, 0x0a, 0x20, 0x20, 0x20, 0x20, 0x20, 0x20, 0x63, 0x75, 0x73, 0x74, 0x6f, 0x6d,
   0x44, 0x6f, 0x6f, 0x72, 0x53, 0x74, 0x61, 0x74, 0x75, 0x73, 0x52, 0x65, 0x67, 0x3a, 0x20, 0x22, 0x30, 0x7c, 0x31,
   0x22, 0x0a, 0x20, 0x20, 0x20, 0x20, 0x20, 0x20, 0x67, 0x70, 0x73, 0x4c, 0x6f, 0x63, 0x61, 0x74, 0x69, 0x6f, 0x6e,
   0x53, 0x74, 0x61, 0x74, 0x75, 0x73, 0x52, 0x65, 0x67, 0x3a, 0x20, 0x22, 0x30, 0x7c, 0x31, 0x22, 0x0a, 0x20, 0x20,
   0x20, 0x20, 0x20, 0x20, 0x62, 0x65, 0x69, 0x64, 0x6f, 0x75, 0x4c, 0x6f, 0x63, 0x61, 0x74, 0x69, 0x6f, 0x6e, 0x53,
   0x74, 0x61, 0x74, 0x75, 0x73, 0x52, 0x65, 0x67, 0x3a, 0x20, 0x22, 0x30, 0x7c, 0x31, 0x22, 0x0a, 0x20, 0x20, 0x20,
   0x20, 0x20, 0x20, 0x67, 0x6c, 0x6f, 0x6e, 0x61, 0x73, 0x73, 0x4c, 0x6f, 0x63, 0x61, 0x74, 0x69, 0x6f, 0x6e, 0x53,
   0x74, 0x61, 0x74, 0x75, 0x73, 0x52, 0x65, 0x67, 0x3a, 0x20, 0x22, 0x30, 0x7c, 0x31, 0x22, 0x0a, 0x20, 0x20, 0x20,
   0x20, 0x20, 0x20, 0x67, 0x61, 0x6c, 0x69, 0x6c, 0x65, 0x6f, 0x4c, 0x6f, 0x63, 0x61, 0x74, 0x69, 0x6f, 0x6e, 0x53,
   0x74, 0x61, 0x74, 0x75, 0x73, 0x52, 0x65, 0x67, 0x3a, 0x20, 0x22, 0x30, 0x7c, 0x31, 0x22, 0x0a, 0x20, 0x20, 0x20,
   0x20, 0x20, 0x20, 0x64, 0x72, 0x69, 0x76, 0x69, 0x6e, 0x67, 0x53, 0x74, 0x61, 0x74, 0x75, 0x73, 0x52, 0x65, 0x67,
   0x3a, 0x20, 0x22, 0x30, 0x7c, 0x31, 0x22, 0x0a, 0x20, 0x20, 0x20, 0x20, 0x6c, 0x6f, 0x63, 0x61, 0x74, 0x69, 0x6f,
   0x6e, 0x3a, 0x0a, 0x20, 0x20, 0x20, 0x20, 0x20, 0x20, 0x6c, 0x61, 0x74, 0x69, 0x74, 0x75, 0x64, 0x65, 0x52, 0x65,
   0x67, 0x3a, 0x20, 0x22, 0x5b, 0x30, 0x2d, 0x38, 0x5d, 0x5b, 0x30, 0x2d, 0x39, 0x5d, 0x7c, 0x39, 0x30, 0x22, 0x0a,
   0x20, 0x20, 0x20, 0x20, 0x20, 0x20, 0x6c, 0x6f, 0x6e, 0x67, 0x69, 0x74, 0x75, 0x64, 0x65, 0x52, 0x65, 0x67, 0x3a,
   0x20, 0x22, 0x5b, 0x30, 0x2d, 0x39, 0x5d, 0x7b, 0x32, 0x7d, 0x7c, 0x31, 0x5b, 0x30, 0x2d, 0x37, 0x5d, 0x5b, 0x30,
   0x2d, 0x39, 0x5d, 0x7c, 0x31, 0x38, 0x30, 0x22, 0x0a, 0x20, 0x20, 0x20, 0x20, 0x20, 0x20, 0x61, 0x6c, 0x74, 0x69,
   0x74, 0x75, 0x64, 0x65, 0x52, 0x65, 0x67, 0x3a, 0x20, 0x22, 0x5b, 0x30, 0x2d, 0x39, 0x5d, 0x7b, 0x34, 0x7d, 0x22,
   0x0a, 0x20, 0x20, 0x20, 0x20, 0x64, 0x72, 0x69, 0x76, 0x65, 0x3a, 0x0a, 0x20, 0x20, 0x20, 0x20, 0x20, 0x20, 0x73,
   0x70, 0x65, 0x65, 0x64, 0x52, 0x65, 0x67, 0x3a, 0x20, 0x22, 0x5b, 0x30, 0x2d, 0x39, 0x5d, 0x7b, 0x32, 0x7d, 0x22,
   0x0a, 0x20, 0x20, 0x20, 0x20, 0x20, 0x20, 0x64, 0x69, 0x72, 0x65, 0x63, 0x74, 0x69, 0x6f, 0x6e, 0x52, 0x65, 0x67,
   0x3a, 0x20, 0x22, 0x5b, 0x30, 0x2d, 0x39, 0x5d, 0x7b, 0x32, 0x7d, 0x7c, 0x5b, 0x31, 0x2d, 0x32, 0x5d, 0x5b, 0x30,
   0x2d, 0x39, 0x5d, 0x7b, 0x32, 0x7d, 0x7c, 0x33, 0x5b, 0x30, 0x2d, 0x35, 0x5d, 0x5b, 0x30, 0x2d, 0x39, 0x5d, 0x22,
   0x0a]

set_option maxRecDepth 100000 in
theorem client_file : (clientFile.flatMap encoded) = clientBytes := by decide +kernel

set_option maxRecDepth 100000 in
theorem client_data : clientAsset = some ⟨clientBytes, ascii "test/client/configs/default.yaml", 1673, 420⟩ := by decide +kernel

end JT808
