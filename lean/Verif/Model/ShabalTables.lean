import Verif.Base.Vec
/- Generated by tools/gen_shabal.py from /repo/shabal/src. -/
namespace Hashes.Shabal

/-- Arguments of the 48 calls in `perm_blocks`, core_api.rs:96-145: `xa0, xa1, xb0, xb1, xb2, xb3, xc0`, index into `m`. -/
def permTable : List (List Nat) := [
  [0, 11, 0, 13, 9, 6, 8, 0],
  [1, 0, 1, 14, 10, 7, 7, 1],
  [2, 1, 2, 15, 11, 8, 6, 2],
  [3, 2, 3, 0, 12, 9, 5, 3],
  [4, 3, 4, 1, 13, 10, 4, 4],
  [5, 4, 5, 2, 14, 11, 3, 5],
  [6, 5, 6, 3, 15, 12, 2, 6],
  [7, 6, 7, 4, 0, 13, 1, 7],
  [8, 7, 8, 5, 1, 14, 0, 8],
  [9, 8, 9, 6, 2, 15, 15, 9],
  [10, 9, 10, 7, 3, 0, 14, 10],
  [11, 10, 11, 8, 4, 1, 13, 11],
  [0, 11, 12, 9, 5, 2, 12, 12],
  [1, 0, 13, 10, 6, 3, 11, 13],
  [2, 1, 14, 11, 7, 4, 10, 14],
  [3, 2, 15, 12, 8, 5, 9, 15],
  [4, 3, 0, 13, 9, 6, 8, 0],
  [5, 4, 1, 14, 10, 7, 7, 1],
  [6, 5, 2, 15, 11, 8, 6, 2],
  [7, 6, 3, 0, 12, 9, 5, 3],
  [8, 7, 4, 1, 13, 10, 4, 4],
  [9, 8, 5, 2, 14, 11, 3, 5],
  [10, 9, 6, 3, 15, 12, 2, 6],
  [11, 10, 7, 4, 0, 13, 1, 7],
  [0, 11, 8, 5, 1, 14, 0, 8],
  [1, 0, 9, 6, 2, 15, 15, 9],
  [2, 1, 10, 7, 3, 0, 14, 10],
  [3, 2, 11, 8, 4, 1, 13, 11],
  [4, 3, 12, 9, 5, 2, 12, 12],
  [5, 4, 13, 10, 6, 3, 11, 13],
  [6, 5, 14, 11, 7, 4, 10, 14],
  [7, 6, 15, 12, 8, 5, 9, 15],
  [8, 7, 0, 13, 9, 6, 8, 0],
  [9, 8, 1, 14, 10, 7, 7, 1],
  [10, 9, 2, 15, 11, 8, 6, 2],
  [11, 10, 3, 0, 12, 9, 5, 3],
  [0, 11, 4, 1, 13, 10, 4, 4],
  [1, 0, 5, 2, 14, 11, 3, 5],
  [2, 1, 6, 3, 15, 12, 2, 6],
  [3, 2, 7, 4, 0, 13, 1, 7],
  [4, 3, 8, 5, 1, 14, 0, 8],
  [5, 4, 9, 6, 2, 15, 15, 9],
  [6, 5, 10, 7, 3, 0, 14, 10],
  [7, 6, 11, 8, 4, 1, 13, 11],
  [8, 7, 12, 9, 5, 2, 12, 12],
  [9, 8, 13, 10, 6, 3, 11, 13],
  [10, 9, 14, 11, 7, 4, 10, 14],
  [11, 10, 15, 12, 8, 5, 9, 15]]

/-- `INIT_192`, consts.rs:3, component A -/
def init192A : List W32 := [
  0xFD749ED4, 0xB798E530, 0x33904B6F, 0x46BDA85E,
  0x076934B4, 0x454B4058, 0x77F74527, 0xFB4CF465,
  0x62931DA9, 0xE778C8DB, 0x22B3998E, 0xAC15CFB9]
/-- `INIT_192`, consts.rs:3, component B -/
def init192B : List W32 := [
  0x58BCBAC4, 0xEC47A08E, 0xAEE933B2, 0xDFCBC824,
  0xA7944804, 0xBF65BDB0, 0x5A9D4502, 0x59979AF7,
  0xC5CEA54E, 0x4B6B8150, 0x16E71909, 0x7D632319,
  0x930573A0, 0xF34C63D1, 0xCAF914B4, 0xFDD6612C]
/-- `INIT_192`, consts.rs:3, component C -/
def init192C : List W32 := [
  0x61550878, 0x89EF2B75, 0xA1660C46, 0x7EF3855B,
  0x7297B58C, 0x1BC67793, 0x7FB1C723, 0xB66FC640,
  0x1A48B71C, 0xF0976D17, 0x088CE80A, 0xA454EDF3,
  0x1C096BF4, 0xAC76224B, 0x5215781C, 0xCD5D2669]
/-- `INIT_224`, consts.rs:23, component A -/
def init224A : List W32 := [
  0xA5201467, 0xA9B8D94A, 0xD4CED997, 0x68379D7B,
  0xA7FC73BA, 0xF1A2546B, 0x606782BF, 0xE0BCFD0F,
  0x2F25374E, 0x069A149F, 0x5E2DFF25, 0xFAECF061]
/-- `INIT_224`, consts.rs:23, component B -/
def init224B : List W32 := [
  0xEC9905D8, 0xF21850CF, 0xC0A746C8, 0x21DAD498,
  0x35156EEB, 0x088C97F2, 0x26303E40, 0x8A2D4FB5,
  0xFEEE44B6, 0x8A1E9573, 0x7B81111A, 0xCBC139F0,
  0xA3513861, 0x1D2C362E, 0x918C580E, 0xB58E1B9C]
/-- `INIT_224`, consts.rs:23, component C -/
def init224C : List W32 := [
  0xE4B573A1, 0x4C1A0880, 0x1E907C51, 0x04807EFD,
  0x3AD8CDE5, 0x16B21302, 0x02512C53, 0x2204CB18,
  0x99405F2D, 0xE5B648A1, 0x70AB1D43, 0xA10C25C2,
  0x16F1AC05, 0x38BBEB56, 0x9B01DC60, 0xB1096D83]
/-- `INIT_256`, consts.rs:43, component A -/
def init256A : List W32 := [
  0x52F84552, 0xE54B7999, 0x2D8EE3EC, 0xB9645191,
  0xE0078B86, 0xBB7C44C9, 0xD2B5C1CA, 0xB0D2EB8C,
  0x14CE5A45, 0x22AF50DC, 0xEFFDBC6B, 0xEB21B74A]
/-- `INIT_256`, consts.rs:43, component B -/
def init256B : List W32 := [
  0xB555C6EE, 0x3E710596, 0xA72A652F, 0x9301515F,
  0xDA28C1FA, 0x696FD868, 0x9CB6BF72, 0x0AFE4002,
  0xA6E03615, 0x5138C1D4, 0xBE216306, 0xB38B8890,
  0x3EA8B96B, 0x3299ACE4, 0x30924DD4, 0x55CB34A5]
/-- `INIT_256`, consts.rs:43, component C -/
def init256C : List W32 := [
  0xB405F031, 0xC4233EBA, 0xB3733979, 0xC0DD9D55,
  0xC51C28AE, 0xA327B8E1, 0x56C56167, 0xED614433,
  0x88B59D60, 0x60E2CEBA, 0x758B4B8B, 0x83E82A7F,
  0xBC968828, 0xE6E00BF7, 0xBA839E55, 0x9B491C60]
/-- `INIT_384`, consts.rs:63, component A -/
def init384A : List W32 := [
  0xC8FCA331, 0xE55C504E, 0x003EBF26, 0xBB6B8D83,
  0x7B0448C1, 0x41B82789, 0x0A7C9601, 0x8D659CFF,
  0xB6E2673E, 0xCA54C77B, 0x1460FD7E, 0x3FCB8F2D]
/-- `INIT_384`, consts.rs:63, component B -/
def init384B : List W32 := [
  0x527291FC, 0x2A16455F, 0x78E627E5, 0x944F169F,
  0x1CA6F016, 0xA854EA25, 0x8DB98ABE, 0xF2C62641,
  0x30117DCB, 0xCF5C4309, 0x93711A25, 0xF9F671B8,
  0xB01D2116, 0x333F4B89, 0xB285D165, 0x86829B36]
/-- `INIT_384`, consts.rs:63, component C -/
def init384C : List W32 := [
  0xF764B11A, 0x76172146, 0xCEF6934D, 0xC6D28399,
  0xFE095F61, 0x5E6018B4, 0x5048ECF5, 0x51353261,
  0x6E6E36DC, 0x63130DAD, 0xA9C69BD6, 0x1E90EA0C,
  0x7C35073B, 0x28D95E6D, 0xAA340E0D, 0xCB3DEE70]
/-- `INIT_512`, consts.rs:83, component A -/
def init512A : List W32 := [
  0x20728DFD, 0x46C0BD53, 0xE782B699, 0x55304632,
  0x71B4EF90, 0x0EA9E82C, 0xDBB930F1, 0xFAD06B8B,
  0xBE0CAE40, 0x8BD14410, 0x76D2ADAC, 0x28ACAB7F]
/-- `INIT_512`, consts.rs:83, component B -/
def init512B : List W32 := [
  0xC1099CB7, 0x07B385F3, 0xE7442C26, 0xCC8AD640,
  0xEB6F56C7, 0x1EA81AA9, 0x73B9D314, 0x1DE85D08,
  0x48910A5A, 0x893B22DB, 0xC5A0DF44, 0xBBC4324E,
  0x72D2F240, 0x75941D99, 0x6D8BDE82, 0xA1A7502B]
/-- `INIT_512`, consts.rs:83, component C -/
def init512C : List W32 := [
  0xD9BF68D1, 0x58BAD750, 0x56028CB2, 0x8134F359,
  0xB5D469D8, 0x941A8CC2, 0x418B2A6E, 0x04052780,
  0x7F07D787, 0x5194358F, 0x3C60D665, 0xBE97D79A,
  0x950C3434, 0xAED9A06D, 0x2537DC8D, 0x7CDB5969]

end Hashes.Shabal
