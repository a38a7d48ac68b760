import Verif.Model.P256Precomp
import Verif.Model.P384Precomp

/-!
The constants of `graviola/src/mid/p256.rs` and `graviola/src/mid/p384.rs`, as instances of the common model.
-/
namespace Verif.Ec

/-- p256.rs:1069-1102, 1015, 494. -/
def curveP256 : Curve 4 where
  aMont := ofWords 4 [0xfffffffffffffffc#64, 0x00000003ffffffff#64, 0x0000000000000000#64, 0xfffffffc00000004#64]
  bMont := ofWords 4 [0xd89cdf6229c4bddf#64, 0xacf005cd78843090#64, 0xe5a220abf7212ed6#64, 0xdc30061d04874834#64]
  oneMont := ofWords 4 [0x0000000000000001#64, 0xffffffff00000000#64, 0xffffffffffffffff#64, 0x00000000fffffffe#64]
  order := ofWords 4 [0xf3b9cac2fc632551#64, 0xbce6faada7179e84#64, 0xffffffffffffffff#64, 0xffffffff00000000#64]
  orderMM := ofWords 4 [0x83244c95be79eea2#64, 0x4699799c49bd6fa6#64, 0x2845b2392b6bec59#64, 0x66e12d94f3d95620#64]
  w5Start := 255
  baseTable := .inl P256Precomp.table

/-- p384.rs:899-942, 850, 424. -/
def curveP384 : Curve 6 where
  aMont := ofWords 6 [0x00000003fffffffc#64, 0xfffffffc00000000#64, 0xfffffffffffffffb#64, 0xffffffffffffffff#64,
    0xffffffffffffffff#64, 0xffffffffffffffff#64]
  bMont := ofWords 6 [0x081188719d412dcc#64, 0xf729add87a4c32ec#64, 0x77f2209b1920022e#64, 0xe3374bee94938ae2#64,
    0xb62b21f41f022094#64, 0xcd08114b604fbff9#64]
  oneMont := ofWords 6 [0xffffffff00000001#64, 0x00000000ffffffff#64, 0x0000000000000001#64, 0x0000000000000000#64,
    0x0000000000000000#64, 0x0000000000000000#64]
  order := ofWords 6 [0xecec196accc52973#64, 0x581a0db248b0a77a#64, 0xc7634d81f4372ddf#64, 0xffffffffffffffff#64,
    0xffffffffffffffff#64, 0xffffffffffffffff#64]
  orderMM := ofWords 6 [0x2d319b2419b409a9#64, 0xff3d81e5df1aa419#64, 0xbc3e483afcb82947#64, 0xd40d49174aab1cc5#64,
    0x3fb05b7a28266895#64, 0x0c84ee012b39bf21#64]
  w5Start := 380
  baseTable := .inr P384Precomp.table

end Verif.Ec
