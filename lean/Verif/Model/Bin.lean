import Verif.CliSpec
import Verif.Model.Api
/-!
# Model of the command line tool

Line numbers are of blake2_bin/src/main.rs. Not modelled here: `structopt` (the command line comes parsed; see `Args.lean`), the text of operating
system and hex errors (they come from outside), failures of `println!` and `eprintln!` (they are in
`Process.lean`). `hex::decode` is `Spec.unhex`.
-/
namespace Blake2.Bin
open Cli

/-- `enum Params`. main.rs 76-81. -/
inductive Params where
  | Blake2b (p : Blake2.Params .b)
  | Blake2bp (p : PParams .b)
  | Blake2s (p : Blake2.Params .s)
  | Blake2sp (p : PParams .s)

/-- `enum State`. main.rs 94-100. -/
inductive State where
  | Blake2b (s : Blake2.State .b)
  | Blake2bp (s : PState .b)
  | Blake2s (s : Blake2.State .s)
  | Blake2sp (s : PState .s)

/-- `Params::to_state`. main.rs 84-91. -/
def Params.toState : Params → Res State
  | .Blake2b p => .ok (.Blake2b p.toState)
  | .Blake2s p => .ok (.Blake2s p.toState)
  | .Blake2bp p => do
    let s ← p.toState
    .ok (.Blake2bp s)
  | .Blake2sp p => do
    let s ← p.toState
    .ok (.Blake2sp s)

/-- `State::update`. main.rs 103-118. -/
def State.update (input : List Byte) : State → Res State
  | .Blake2b s => do
    let s ← s.update input
    .ok (.Blake2b s)
  | .Blake2s s => do
    let s ← s.update input
    .ok (.Blake2s s)
  | .Blake2bp s => do
    let s ← s.update input
    .ok (.Blake2bp s)
  | .Blake2sp s => do
    let s ← s.update input
    .ok (.Blake2sp s)

/-- `State::finalize`. main.rs 120-127. -/
def State.finalize : State → Res (List Char)
  | .Blake2b s => do
    let h ← s.finalize
    h.toHex
  | .Blake2s s => do
    let h ← s.finalize
    h.toHex
  | .Blake2bp s => do
    let h ← s.finalize
    h.toHex
  | .Blake2sp s => do
    let h ← s.finalize
    h.toHex

/-- `mmap_file`. main.rs 130-144. `len as usize` truncates to the pointer width. -/
def mmapFile (w : World) (f : OsFile) : Except String (List Byte) := do
  let len ← f.metadata
  if len > 2 ^ (w.ptrBits - 1) - 1 then
    .error "mmap length would overflow isize"
  else
    f.map (len % 2 ^ w.ptrBits)

/-- The `loop` of `read_write_all`. main.rs 162-172. Each iteration takes the next result of `read`, which has written its
bytes to the front of `buf`; when there is none, `read` never returns. -/
def readLoop : List ReadResult → (buf : List Byte) → State → Res (Except String State)
  | [], _, _ => .error .diverge
  | r :: rest, buf, state =>
    match r with
    | .ok bytes =>
      let buf := bytes.take buf.length ++ buf.drop bytes.length
      if bytes.length = 0 then .ok (.ok state)
      else do
        let chunk ← sliceTo buf bytes.length
        let state ← state.update chunk
        readLoop rest buf state
    | .interrupted => readLoop rest buf state
    | .error m => .ok (.error m)

/-- `read_write_all`. main.rs 146-173. -/
def readWriteAll (reads : List ReadResult) (state : State) : Res (Except String State) :=
  readLoop reads (List.replicate 32768 0) state

/-- A computation that may fault, and may return an error (`?` and `bail!`).
The `Result<_, Error>` of blake2_bin/src/main.rs 175, 329, 341. -/
abbrev Cmd (α : Type) := ExceptT String Res α

/-- Lift a call that has no error of its own. Not in /repo by itself. -/
def call {α : Type} (x : Res α) : Cmd α := ExceptT.lift x

/-- `bail!`. blake2_bin/src/main.rs 177, 234-323, 343. -/
def bail {α : Type} (m : String) : Cmd α := throw m

/-- `hex::decode(text)?`. blake2_bin/src/main.rs 209, 226, 238 (the decoder itself is the crate `hex`, not in /repo). -/
def hexDecode (w : World) (text : List Char) : Cmd (List Byte) :=
  match Spec.unhex text with
  | some bytes => pure bytes
  | none => bail (w.hexMessage text)

/-- The `--length` part of `make_params`. main.rs 192-207. -/
def setLength (o : Opt) (params : Params) : Cmd Params :=
  match o.length with
  | none => pure params
  | some n =>
    match params with
    | .Blake2b p => do return .Blake2b (← call (p.setHashLength n))
    | .Blake2s p => do return .Blake2s (← call (p.setHashLength n))
    | .Blake2bp p => do return .Blake2bp (← call (p.setHashLength n))
    | .Blake2sp p => do return .Blake2sp (← call (p.setHashLength n))

/-- The `--key` part. main.rs 208-224. -/
def setKey (w : World) (o : Opt) (params : Params) : Cmd Params :=
  match o.key with
  | none => pure params
  | some key => do
    let bytes ← hexDecode w key
    match params with
    | .Blake2b p => return .Blake2b (← call (p.setKey bytes))
    | .Blake2s p => return .Blake2s (← call (p.setKey bytes))
    | .Blake2bp p => return .Blake2bp (← call (p.setKey bytes))
    | .Blake2sp p => return .Blake2sp (← call (p.setKey bytes))

/-- The `--salt` part. main.rs 225-236. -/
def setSalt (w : World) (o : Opt) (params : Params) : Cmd Params :=
  match o.salt with
  | none => pure params
  | some salt => do
    let bytes ← hexDecode w salt
    match params with
    | .Blake2b p => return .Blake2b (← call (p.setSalt bytes))
    | .Blake2s p => return .Blake2s (← call (p.setSalt bytes))
    | _ => bail "--salt not supported"

/-- The `--personal` part. main.rs 237-248. -/
def setPersonal (w : World) (o : Opt) (params : Params) : Cmd Params :=
  match o.personal with
  | none => pure params
  | some personal => do
    let bytes ← hexDecode w personal
    match params with
    | .Blake2b p => return .Blake2b (← call (p.setPersonal bytes))
    | .Blake2s p => return .Blake2s (← call (p.setPersonal bytes))
    | _ => bail "--personal not supported"

/-- The `--fanout` part. main.rs 249-259. -/
def setFanout (o : Opt) (params : Params) : Cmd Params :=
  match o.fanout with
  | none => pure params
  | some n =>
    match params with
    | .Blake2b p => do return .Blake2b (← call (p.setFanout n))
    | .Blake2s p => do return .Blake2s (← call (p.setFanout n))
    | _ => bail "--fanout not supported"

/-- The `--max-depth` part. main.rs 260-270. -/
def setMaxDepth (o : Opt) (params : Params) : Cmd Params :=
  match o.maxDepth with
  | none => pure params
  | some n =>
    match params with
    | .Blake2b p => do return .Blake2b (← call (p.setMaxDepth n))
    | .Blake2s p => do return .Blake2s (← call (p.setMaxDepth n))
    | _ => bail "--max-depth not supported"

/-- The `--max-leaf-length` part. main.rs 271-281. -/
def setMaxLeafLength (o : Opt) (params : Params) : Cmd Params :=
  match o.maxLeafLength with
  | none => pure params
  | some n =>
    match params with
    | .Blake2b p => do return .Blake2b (← call (p.setMaxLeafLength n))
    | .Blake2s p => do return .Blake2s (← call (p.setMaxLeafLength n))
    | _ => bail "--max-leaf-length not supported"

/-- The `--node-offset` part. main.rs 282-292. -/
def setNodeOffset (o : Opt) (params : Params) : Cmd Params :=
  match o.nodeOffset with
  | none => pure params
  | some n =>
    match params with
    | .Blake2b p => do return .Blake2b (← call (p.setNodeOffset n))
    | .Blake2s p => do return .Blake2s (← call (p.setNodeOffset n))
    | _ => bail "--node-offset not supported"

/-- The `--node-depth` part. main.rs 293-303. -/
def setNodeDepth (o : Opt) (params : Params) : Cmd Params :=
  match o.nodeDepth with
  | none => pure params
  | some n =>
    match params with
    | .Blake2b p => do return .Blake2b (← call (p.setNodeDepth n))
    | .Blake2s p => do return .Blake2s (← call (p.setNodeDepth n))
    | _ => bail "--node-depth not supported"

/-- The `--inner-hash-length` part. main.rs 304-314. -/
def setInnerHashLength (o : Opt) (params : Params) : Cmd Params :=
  match o.innerHashLength with
  | none => pure params
  | some n =>
    match params with
    | .Blake2b p => do return .Blake2b (← call (p.setInnerHashLength n))
    | .Blake2s p => do return .Blake2s (← call (p.setInnerHashLength n))
    | _ => bail "--inner-hash-length not supported"

/-- The `--last-node` part. main.rs 315-325. -/
def setLastNode (o : Opt) (params : Params) : Cmd Params :=
  if o.lastNode then
    match params with
    | .Blake2b p => do return .Blake2b (← call (p.setLastNode true))
    | .Blake2s p => do return .Blake2s (← call (p.setLastNode true))
    | _ => bail "--last-node not supported"
  else pure params

/-- The choice of the hash function in `make_params`. main.rs 179-191. `Params::new` detects the implementation. -/
def newParams (e : Machine) (o : Opt) : Params :=
  if o.small then
    if o.parallel then .Blake2sp (PParams.new .s (detect e)) else .Blake2s (Params.new .s (detect e))
  else
    if o.parallel then .Blake2bp (PParams.new .b (detect e)) else .Blake2b (Params.new .b (detect e))

/-- `make_params`. main.rs 175-327. -/
def makeParams (e : Machine) (w : World) (o : Opt) : Cmd Params :=
  if o.big && o.small then
    bail "-b and -s can't be used together"
  else do
    let params ← setLength o (newParams e o)
    let params ← setKey w o params
    let params ← setSalt w o params
    let params ← setPersonal w o params
    let params ← setFanout o params
    let params ← setMaxDepth o params
    let params ← setMaxLeafLength o params
    let params ← setNodeOffset o params
    let params ← setNodeDepth o params
    let params ← setInnerHashLength o params
    setLastNode o params

/-- `hash_file`. main.rs 329-339. -/
def hashFile (w : World) (o : Opt) (params : Params) (f : OsFile) : Cmd (List Char) := do
  let state ← call params.toState
  match f.openError with
  | some m => bail m
  | none =>
    let state ←
      if o.mmap then
        match mmapFile w f with
        | .error m => bail m
        | .ok map => call (state.update map)
      else ExceptT.mk (readWriteAll f.reads state)
    call state.finalize

/-- `hash_stdin`. main.rs 341-348. -/
def hashStdin (o : Opt) (params : Params) (stdin : List ReadResult) : Cmd (List Char) := do
  if o.mmap then
    bail "--mmap not supported for stdin"
  else
    let state ← call params.toState
    let state ← ExceptT.mk (readWriteAll stdin state)
    call state.finalize

/-- The `for` loop of `main`. main.rs 371-385. -/
def fileLoop (w : World) (o : Opt) (params : Params) : List (String × OsFile) → Res (List Line × Bool)
  | [] => .ok ([], false)
  | (path, f) :: rest => do
    let (line, failed) ←
      match ← (hashFile w o params f).run with
      | .ok hash =>
        if o.inputs.length > 1 then
          (.ok (.out (String.ofList hash ++ "  " ++ path), false) : Res (Line × Bool))
        else .ok (.out (String.ofList hash), false)
      | .error m => .ok (.err ("blake2: " ++ path ++ ": " ++ m), true)
    let (lines, failed') ← fileLoop w o params rest
    .ok (line :: lines, failed || failed')

/-- `main`. main.rs 350-390. `files` holds the answers of the operating system for `opt.inputs`, in the same order. -/
def main (e : Machine) (w : World) (o : Opt) (stdin : List ReadResult) (files : List OsFile) : Res Output := do
  match ← (makeParams e w o).run with
  | .error m => .ok { lines := [.err ("blake2: " ++ m)], status := 1 }
  | .ok params =>
    let (lines, failed) ←
      if o.inputs.isEmpty then
        match ← (hashStdin o params stdin).run with
        | .ok hash => (.ok ([.out (String.ofList hash)], false) : Res (List Line × Bool))
        | .error m => .ok ([.err ("blake2: stdin: " ++ m)], true)
      else fileLoop w o params (o.inputs.zip files)
    .ok { lines := lines, status := if failed then 1 else 0 }

end Blake2.Bin
