import Verif.Gen.Crate
import Verif.Gen.TestsStd
import Verif.Gen.TestsPre
import Verif.Gen.TestsBitslice
/-
The tests that `cargo test` runs on a target, as the source text says. Only this assembly is hand-written (see Verif/Gen/Crate.lean).
-/
namespace RustSrc
open Rust Aes Aes.Target

/-- The tests of src/tests.rs (declared by src/lib.rs:123-124) against the modules of the target, then those in the selected module
(src/aes_bitslice.rs:410-435). -/
def tests (pf : Aes.Profile) (e : Endian) : Target → List (M Unit)
  | .arm b => @Lib.Pre.Tests.suite (cfg pf e (.arm b)) _ _ _ (block pf e (.arm b)) (blockX2 pf e (.arm b)) (blockX4 pf e (.arm b))
      (armPre pf e b)
  | .riscv32 => @Lib.Pre.Tests.suite (cfg pf e .riscv32) _ _ _ (block pf e .riscv32) (blockX2 pf e .riscv32) (blockX4 pf e .riscv32)
      (riscv32Pre pf e)
  | .bitslice e' => @Lib.Std.Tests.suite (cfg pf e (.bitslice e')) _ _ _ (block pf e (.bitslice e')) (blockX2 pf e (.bitslice e'))
      (blockX4 pf e (.bitslice e')) ++ @Bitslice.Tests.suite (cfg pf e (.bitslice e'))
  | t => @Lib.Std.Tests.suite (cfg pf e t) _ _ _ (block pf e t) (blockX2 pf e t) (blockX4 pf e t)

end RustSrc
