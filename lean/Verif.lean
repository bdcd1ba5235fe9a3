import Verif.Gen.Arm
import Verif.Gen.Bitslice
import Verif.Gen.Borrow
import Verif.Gen.BorrowCrate
import Verif.Gen.BorrowPrelude
import Verif.Gen.Calls
import Verif.Gen.Core
import Verif.Gen.Crate
import Verif.Gen.CrateTests
import Verif.Gen.DefaultX2
import Verif.Gen.DefaultX4
import Verif.Gen.Intrinsics
import Verif.Gen.Items
import Verif.Gen.Ladders
import Verif.Gen.LeakArm
import Verif.Gen.LeakBitslice
import Verif.Gen.LeakCore
import Verif.Gen.LeakCrate
import Verif.Gen.LeakDefaultX2
import Verif.Gen.LeakDefaultX4
import Verif.Gen.LeakIntrinsics
import Verif.Gen.LeakLibPre
import Verif.Gen.LeakLibStd
import Verif.Gen.LeakNiX2
import Verif.Gen.LeakNiX4
import Verif.Gen.LeakPrelude
import Verif.Gen.LeakRiscv32
import Verif.Gen.LeakRiscv64
import Verif.Gen.LeakTable
import Verif.Gen.LeakX86
import Verif.Gen.LibPre
import Verif.Gen.LibStd
import Verif.Gen.NiX2
import Verif.Gen.NiX4
import Verif.Gen.Prelude
import Verif.Gen.Riscv32
import Verif.Gen.Riscv64
import Verif.Gen.Table
import Verif.Gen.TestsBitslice
import Verif.Gen.TestsPre
import Verif.Gen.TestsStd
import Verif.Gen.X86
import Verif.Model.Api
import Verif.Model.Arm
import Verif.Model.Bitslice
import Verif.Model.Borrow
import Verif.Model.Ci
import Verif.Model.Client
import Verif.Model.Columns
import Verif.Model.Config
import Verif.Model.DefaultX2
import Verif.Model.DefaultX4
import Verif.Model.Fmt
import Verif.Model.IsaArm
import Verif.Model.IsaRiscv
import Verif.Model.IsaX86
import Verif.Model.Leak
import Verif.Model.LeakBitslice
import Verif.Model.LeakClient
import Verif.Model.LeakHw
import Verif.Model.LeakLib
import Verif.Model.LeakTable
import Verif.Model.Lib
import Verif.Model.Mem
import Verif.Model.NiX2
import Verif.Model.NiX4
import Verif.Model.Over
import Verif.Model.Profile
import Verif.Model.Riscv32
import Verif.Model.Riscv64
import Verif.Model.Store
import Verif.Model.Table
import Verif.Model.TableData
import Verif.Model.Target
import Verif.Model.Tests
import Verif.Model.Threads
import Verif.Model.Transmute
import Verif.Model.X86
import Verif.Proofs.Arm
import Verif.Proofs.Bitslice
import Verif.Proofs.BitsliceSub
import Verif.Proofs.Borrow
import Verif.Proofs.BorrowAssign
import Verif.Proofs.BorrowHistory
import Verif.Proofs.BorrowKeys
import Verif.Proofs.BorrowRead
import Verif.Proofs.BorrowStore
import Verif.Proofs.Bytes
import Verif.Proofs.CipherProofs
import Verif.Proofs.ClientHom
import Verif.Proofs.ClientProofs
import Verif.Proofs.ClientRv32
import Verif.Proofs.Columns
import Verif.Proofs.ColumnsFips
import Verif.Proofs.Cost
import Verif.Proofs.CostClient
import Verif.Proofs.CostHw
import Verif.Proofs.CostSw
import Verif.Proofs.Count
import Verif.Proofs.Decide
import Verif.Proofs.DefaultWide
import Verif.Proofs.Differential
import Verif.Proofs.Diffusion
import Verif.Proofs.EndToEnd
import Verif.Proofs.Eval
import Verif.Proofs.Fast
import Verif.Proofs.Field
import Verif.Proofs.Fmt
import Verif.Proofs.FmtText
import Verif.Proofs.GenArm
import Verif.Proofs.GenBitslice
import Verif.Proofs.GenBorrow
import Verif.Proofs.GenBorrowCrate
import Verif.Proofs.GenBorrowStore
import Verif.Proofs.GenColumns
import Verif.Proofs.GenCore
import Verif.Proofs.GenCrate
import Verif.Proofs.GenDefault
import Verif.Proofs.GenLadders
import Verif.Proofs.GenLeakArm
import Verif.Proofs.GenLeakBitslice
import Verif.Proofs.GenLeakColumns
import Verif.Proofs.GenLeakCore
import Verif.Proofs.GenLeakCrate
import Verif.Proofs.GenLeakDefault
import Verif.Proofs.GenLeakLib
import Verif.Proofs.GenLeakNi
import Verif.Proofs.GenLeakRiscv32
import Verif.Proofs.GenLeakRiscv64
import Verif.Proofs.GenLeakTable
import Verif.Proofs.GenLeakX86
import Verif.Proofs.GenLib
import Verif.Proofs.GenNi
import Verif.Proofs.GenRiscv32
import Verif.Proofs.GenRiscv64
import Verif.Proofs.GenTable
import Verif.Proofs.GenTests
import Verif.Proofs.GenX86
import Verif.Proofs.Gf
import Verif.Proofs.Instr
import Verif.Proofs.InstrClient
import Verif.Proofs.InstrHw
import Verif.Proofs.InstrSw
import Verif.Proofs.Integral
import Verif.Proofs.KeySched
import Verif.Proofs.Lanes
import Verif.Proofs.Lawful
import Verif.Proofs.Leak
import Verif.Proofs.LeakBitslice
import Verif.Proofs.LeakClient
import Verif.Proofs.LeakHw
import Verif.Proofs.LeakLib
import Verif.Proofs.LeakTable
import Verif.Proofs.LibProofs
import Verif.Proofs.Linear
import Verif.Proofs.LinearBox
import Verif.Proofs.LinearMix
import Verif.Proofs.LinearSbox
import Verif.Proofs.Mem
import Verif.Proofs.NiWide
import Verif.Proofs.Over
import Verif.Proofs.Profile
import Verif.Proofs.Recover
import Verif.Proofs.Riscv32
import Verif.Proofs.Riscv32Cipher
import Verif.Proofs.Riscv64
import Verif.Proofs.RustLemmas
import Verif.Proofs.SpecCipher
import Verif.Proofs.SpecLemmas
import Verif.Proofs.Store
import Verif.Proofs.Table
import Verif.Proofs.Target
import Verif.Proofs.Threads
import Verif.Proofs.Trail
import Verif.Proofs.WeakMemory
import Verif.Proofs.Words
import Verif.Proofs.X86
import Verif.Properties.BigEndian
import Verif.Properties.Borrow
import Verif.Properties.Bulk
import Verif.Properties.Chain
import Verif.Properties.Ci
import Verif.Properties.Cipher
import Verif.Properties.Client
import Verif.Properties.Config
import Verif.Properties.ConstantTime
import Verif.Properties.Contract
import Verif.Properties.Cost
import Verif.Properties.Cpu
import Verif.Properties.Data
import Verif.Properties.Deployment
import Verif.Properties.Differential
import Verif.Properties.Diffusion
import Verif.Properties.Fmt
import Verif.Properties.Integral
import Verif.Properties.IsaHardware
import Verif.Properties.IsaVectors
import Verif.Properties.KeySchedule
import Verif.Properties.Layout
import Verif.Properties.Leak
import Verif.Properties.Linear
import Verif.Properties.Mem
import Verif.Properties.Message
import Verif.Properties.Modes
import Verif.Properties.NoFault
import Verif.Properties.Permutation
import Verif.Properties.Profile
import Verif.Properties.Recover
import Verif.Properties.Remains
import Verif.Properties.Repair
import Verif.Properties.Riscv32
import Verif.Properties.RoundLaws
import Verif.Properties.Rounds
import Verif.Properties.SameApi
import Verif.Properties.SharedKeys
import Verif.Properties.Source
import Verif.Properties.SourceBorrow
import Verif.Properties.SourceLeak
import Verif.Properties.SourceTests
import Verif.Properties.Store
import Verif.Properties.Symmetry
import Verif.Properties.Tables
import Verif.Properties.Tests
import Verif.Properties.Threads
import Verif.Properties.Trail
import Verif.Properties.Types
import Verif.Properties.TypesMem
import Verif.Properties.Vectors
import Verif.Properties.WeakMemory
import Verif.Properties.Wide
import Verif.Rust
import Verif.Spec.Block
import Verif.Spec.Borrows
import Verif.Spec.Cost
import Verif.Spec.Count
import Verif.Spec.Cpu
import Verif.Spec.Diff
import Verif.Spec.Fips197
import Verif.Spec.Integral
import Verif.Spec.KeyVariants
import Verif.Spec.Leakage
import Verif.Spec.Linear
import Verif.Spec.Modes
import Verif.Spec.Recover
import Verif.Spec.Reference
import Verif.Spec.Rv32
import Verif.Spec.Rv32Reference
import Verif.Spec.Sink
import Verif.Spec.Symmetry
import Verif.Spec.Text
import Verif.Spec.Threads
import Verif.Spec.Types
import Verif.Spec.WeakMemory
