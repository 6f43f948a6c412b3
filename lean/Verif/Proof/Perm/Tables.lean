import Verif.Base.Bytes
/- Witnesses for C62 (inverse S-boxes and inverse diffusion matrices), generated by tools/gen_perm_tables.py. Nothing is
assumed about them: `Proof/Perm/Grid.lean` checks that they are inverses. Entry `y` of an inverse S-box is byte `y` of the number. -/
namespace Hashes.Perm

/-- Inverse of Whirlpool's S-box. -/
def whirlpoolInv : Nat :=
  0x681e9abe40c4a8fed3ea0b338d5875258f41f77bcf936003d8a1233859b6ef19c59844e47c27573f1a8662a5d70ab4f682ca65f834482954bd02a9da7a1be2974a643011e195d405cef58870b8a02c5f896f4cecc952dfa63c09b5fb14927d2d2447e6ba125cc1fa80a73ed2729c0e6acc137eb33b9fed5b04ff2fac4e85d163dec63d4216690cb121849de976ad53f40dd9c2e72e8af26d3743947450a4b7106bb031fd5a4dab281fdc9171e30fc08b07cd9baf1d26566746eb8cddbcf93a7890357fd0c8f1aeb2220817664f5ee88e961c49d683e02afc395daac70173b96ca3bb1899876e550045f020eed577cb3261a2c315e52bf3794b9e36bfdb510681

/-- Inverse of the AES S-box. -/
def aesInv : Nat :=
  0x7d0c2155631469e126d677ba7e042b17619953833cbbebc8b0f52aae4d3be0a0ef9cc9939f7ae52d0d4ab519a97f51605fec8027591012b131c7078833a8dd1ff45acd78fec0db9a2079d2c64b3e56fc1bbe18aa0e62b76f89c5291d711af1476edf751ce837f9e28535ade72274ac9673e6b4f0cecff297eadc674f4111913a6b8a130103bdafc1020f3fca8f1e2cd00645b3b80558e4f70ad3bc8c00abd890849d8da75746155edab9edfd5048706c92b6655dcc5ca4d41698688664f6f87225d18b6d49a25b76b224d92866a12e084ec3fa420b954cee3d23c2a632947b54cbe9dec444438e3487ff2f9b8239e37cfbd7f3819ea340bf38a53630d56a0952

/-- Inverse of Streebog's substitution. -/
def streebogInv : Nat :=
  0x74d74c00080a20d6c78b81f568481a1226013a9240441099cef4edcb3424d09080930298130bcddd888abd3d3ef3f8eb044e1d4fe8dc8745677a0d097cfb1ff758ec7d971b178ea95dff50f6c26e6f96fa33b0c547da8385a0f1bae3b94b6137ad6d6c5ce966163ba162be9514b369db362ed8b82c76cfcc5fc4de31d2ab287b3c77bb8c6594896a115671f2a359e1516b0578eeca35bc4ae2f922acfea6dfa21eb55e25e723f0c17f53b679d9ef439b2f9c0fd4fd9fd3465bb2b1a7862bafc3d584732abf4dfcaac91975419d7006c8b715e442e549639ab4aeea820c8d27e03fa4c629d1a872211807601c5a57036491527e55399ee654c038300e8f322da5

/-- Inverse of Kupyna's S-box 0. -/
def kupynaInv0 : Nat :=
  0x8f821b62c83669d5d0be7b381141ba0dc137f3b990d1b5c251faa345de522b19099b21406b85e50e95ed3ac6962d34e4ecb2884913fb14df752fa8d86e58caf229b1b35c3e7aebdb63259a24b0769f8b17b43be04abd5d00f6aa663d22ae3fa77d3294488026bba61a540bbc2e309ecc4c78efc3fdb68e650a68f89142cff0ffc7d489fc6d4618a079af05abee3108971c4d1006046492a5985a59e235dd338302cb9c846a53073cdafe7ff167e1ead623f415811d4b2c615e871ef501445f998c20cedc77931f6c4374c4607147b79dc050ac1657f7e9734fbff97256708acd286f12b88dd739860c552a7ce6e8a1e35b27d3e7add20f7ed903c94ec5a9a2a4

/-- Inverse of Kupyna's S-box 1. -/
def kupynaInv1 : Nat :=
  0xaa936366ed47af0f33211c2543cec0f3a44ff5e8020408c660ad6ba86eccb5b82cdae271ee815b3eff0a8978ca0c48e38b00db54055f823afcea1894abf107fd87e5443f011b9db672f07513d50b2b9ed73bdfde4627acb7f6e77d7cc78557a738249a8a49c4dd9f77644dc291034e0d99521f6db0fa6c16e497cbc57ecf58b2f98490305ad16aaec9bb28d32ee0a2a65cc12d73419b424a1ef714225179d65e7fe6351953f4ef231d12863cd4cd8fd0c84b2f50a374596295b16536171067a976378e55a509d8b45d1ad9ec45a12070d2327ae16180fec3fb31bdbeba26f86fdcb3bc15924056a00e4c11390668883d298c69b9988d96349c7bbfe9eb2af283

/-- Inverse of Kupyna's S-box 2. -/
def kupynaInv2 : Nat :=
  0xe1b87907b5b9b1fc89e0d115c3bae48249ad8d8ca9cb8bdeea5e7b1933671f2d0a3dbe0df36e01234273511b5c9b2e5891aa1c644eb2812b8857e8324613b722d3c5bca71608666936c10337a03e7aca7dc42668acf75593e930416c17af29f20c534c65250292045bbd9a140048df3f62ab87f8fba6c78680f527ce9fcf618ee7774d6d592ad2356334d6feb02f1a1dbb758476d009a1dbff78ddcdd718eb7cd57e83249dec0fe3a26056f628c00e94524a543ccc10205fe5ee06efbff03b9e859cda2139b3f46f965d4ff97fc8ae996a472c3112dc8f9890c94097d905faa8a3708aa5d8b4c65a111e6b74e24b4450953ab6fd71e638c2a4ed72f1430bd445

/-- Inverse of Kupyna's S-box 3. -/
def kupynaInv3 : Nat :=
  0x9dd463dd9c6e46a2d3a41e45322883f3df53247796704836d0c644aaeabe3efe3fda7df27ab8ab6a934a1b08563d2cad4d3abb35e002fb54afc1b75d90959e978d651f71e1e4acfa1a9240db0b9f5bd1cb52eb7e6b67f576c075dc98c9bd58879126d56d68894feda0c8e937c259f9b185b3019a99196c69d6474bce17d2d8def881e67b84bf1de78be3a5ec04605f30b442f1b0e2ccbc00782fa3f08672ff6f662b31d77fe5f420fc382a0c160925b5490603f60515a855b91233618aae5a34ba29132eee3ccf4164efd980a94e505721a1145ec707947c8e0a1c744c108c790f0d9bcafd3b0e5cf72d625118cd2782c3432273e8c48f39a6c588a71123b6b2

/-- First line of the inverse of the circulant matrix of Whirlpool. -/
def whirlpoolMix : List Byte := [0x04, 0xaf, 0x0e, 0xa4, 0xc2, 0xc2, 0xcb, 0x3e]

/-- First line of the inverse of the circulant matrix of Groestl. -/
def groestlMix : List Byte := [0x13, 0x5a, 0x54, 0x72, 0x50, 0xdf, 0x45, 0x53]

/-- First line of the inverse of the circulant matrix of Kupyna. -/
def kupynaMix : List Byte := [0xad, 0x95, 0x76, 0xa8, 0x2f, 0x49, 0xd7, 0xca]

/-- Inverse of Streebog's matrix. -/
def streebogMix : List (List Byte) := [
  [0x46, 0xec, 0xde, 0xf1, 0x45, 0x1c, 0xce, 0x4c],
  [0xd5, 0x35, 0xe5, 0xae, 0xee, 0x6b, 0x11, 0x98],
  [0x11, 0x01, 0x6f, 0x63, 0x21, 0x99, 0x3f, 0x40],
  [0xb3, 0x37, 0x4b, 0x46, 0x16, 0xf4, 0xbe, 0xb5],
  [0x90, 0x9c, 0x69, 0x8e, 0x51, 0xc2, 0xaf, 0x3c],
  [0x4e, 0x8c, 0x56, 0x23, 0x12, 0xc2, 0x26, 0x96],
  [0x97, 0xf0, 0x8e, 0xa3, 0x2b, 0x39, 0x68, 0xa5],
  [0xe8, 0x3a, 0x3e, 0x08, 0xf7, 0x55, 0x6d, 0x97]]

end Hashes.Perm
