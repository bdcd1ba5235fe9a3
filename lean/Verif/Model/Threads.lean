import Verif.Model.Store
import Verif.Model.Client
/-
Threads that use the crate on one shared memory. The crate itself starts no threads and has no locks; what a multi-threaded program relies
on is that it keeps no state of its own (the only `static`s of src/*.rs are the constant tables of src/aes_table_based.rs:386-734; there is
no `static mut`, no `Cell`, no atomic; an encrypter is an immutable value, src/lib.rs:430-433, and all methods take `self` or `&self`
except the three compound assignments, src/lib.rs:190-209), and that a call reads and writes the caller's buffers and
nothing else. A thread is a sequence of single byte loads and stores; calls into the crate between them work on registers and the
thread's own stack and are not interruptible in any observable way. The scheduler may switch threads after every load and store.
-/
namespace Aes.Threads
open Rust Target Store

/-- What a thread has still to do. -/
inductive Prog where
  /-- nothing: it has returned or panicked -/
  | done (r : M Unit)
  /-- load a byte and go on with it -/
  | load (a : Nat) (k : U8 → Prog)
  /-- store a byte and go on -/
  | store (w : Write) (k : Prog)

/-- One step of a thread. -/
def Prog.step : Prog → Memory → Prog × Memory
  | .done r, m => (.done r, m)
  | .load a k, m => (k (m a), m)
  | .store w k, m => (k, apply m w)

/-- The state of a system of threads: what each has to do, and the memory they share. -/
structure System where
  threads : Nat → Prog
  memory : Memory

/-- Thread `i` makes a step. -/
def System.step (s : System) (i : Nat) : System :=
  let r := (s.threads i).step s.memory
  ⟨fun j => if j = i then r.1 else s.threads j, r.2⟩
/-- The system runs under a schedule: the list of the threads that make a step, in order. -/
def System.exec (s : System) (schedule : List Nat) : System := schedule.foldl System.step s

/-- A thread alone makes `n` steps. -/
def Prog.steps (p : Prog) (m : Memory) : Nat → Prog × Memory
  | 0 => (p, m)
  | n + 1 => (p.step m).1.steps (p.step m).2 n

/-- Copying `n` bytes from address `p` on into an array. -/
def readN (p : Nat) : (n : Nat) → (Vector U8 n → Prog) → Prog
  | 0, k => k #v[]
  | n + 1, k => readN p n fun v => .load (p + n) fun b => k (v.push b)

/-- A call that writes memory (such as `store_to`, Model/Store.lean), then the rest unless it panicked. -/
def perform (w : W Unit) (k : Prog) : Prog := w.writes.foldr .store (match w.result with
  | .ok () => k
  | .error e => .done (.error e))

/-- A piece of work: the address of the 16, 32 or 64 bytes to process, and where the result is to go. -/
structure Chunk where
  w : Width
  src : Nat
  dst : Slice

/-- `store_to` of the block type of the given width (src/*.rs `store_to`). -/
def storeVec (t : Target) : (w : Width) → t.Vec w → Slice → W Unit
  | .x1 => StoreTo.store_to (T := t.Block)
  | .x2 => StoreTo.store_to (T := t.X2)
  | .x4 => StoreTo.store_to (T := t.X4)

/-- A thread that works through a list of chunks: load, process with `f`, `store_to`. -/
def worker (t : Target) (f : (w : Width) → Vector U8 w.size → M (t.Vec w)) : List Chunk → Prog
  | [] => .done (.ok ())
  | c :: cs => readN c.src c.w.size fun b => match f c.w b with
    | .error e => .done (.error e)
    | .ok y => perform (storeVec t c.w y c.dst) (worker t f cs)

/-- Threads, each with its own list of chunks, on a memory. -/
def start (t : Target) (f : (w : Width) → Vector U8 w.size → M (t.Vec w)) (work : List (List Chunk)) (m : Memory) : System :=
  ⟨fun i => worker t f (work.getD i []), m⟩

/-- The same with the encrypter or decrypter in memory too: `&self` (src/lib.rs:290-294, 304-308) is the address of the `n` bytes that hold
the round keys (src/lib.rs:430-433, 445-448), and every call loads them. All of them are loaded, one byte at a time, before
the block is processed (simplification: the code loads each when it is needed). -/
def sharedWorker (t : Target) (self n : Nat) (f : Vector U8 n → (w : Width) → Vector U8 w.size → M (t.Vec w)) : List Chunk → Prog
  | [] => .done (.ok ())
  | c :: cs => readN c.src c.w.size fun b => readN self n fun keys => match f keys c.w b with
    | .error e => .done (.error e)
    | .ok y => perform (storeVec t c.w y c.dst) (sharedWorker t self n f cs)

/-- Threads that share the encrypter or decrypter at address `self`. -/
def startShared (t : Target) (self n : Nat) (f : Vector U8 n → (w : Width) → Vector U8 w.size → M (t.Vec w)) (work : List (List Chunk))
    (m : Memory) : System := ⟨fun i => sharedWorker t self n f (work.getD i []), m⟩

end Aes.Threads
