import Verif.Proofs.GenCore
import Verif.Gen.DefaultX2
import Verif.Gen.DefaultX4
/-
The functions generated from src/aesdefault_x2.rs and src/aesdefault_x4.rs are those of the model. (`pre` is not a function of
these files; src/lib.rs adds it.)
-/
namespace RustSrc
open Rust
variable [Cfg] {B X2 : Type}

theorem DefaultX2.vec_eq [Aes.AesBlock B] (p : Option (Aes.Pre (Aes.DefaultX2.X2 B))) :
    { DefaultX2.vec (B := B) with pre := p } = { Aes.Profile.DefaultX2.vec Cfg.profile B with pre := p } := rfl

theorem DefaultX4.vec_eq [Aes.AesBlockX2 B X2] (p : Option (Aes.Pre (Aes.DefaultX4.X4 X2))) :
    { DefaultX4.vec (B := B) (X2 := X2) with pre := p } =
      { Aes.Profile.DefaultX4.vec Cfg.profile B X2 with pre := p } := rfl

end RustSrc
