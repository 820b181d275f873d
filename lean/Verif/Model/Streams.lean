import Verif.Model.Files

/-!
# Reading and writing in pieces

Model/Codecs and Model/Files treat the input and the output of the codecs as whole lists of bytes. Here
the calls of `Read::read` and `Write::write` are visible: each one is answered by the operating system,
which may take only a part, fail, or never answer because the process is stopped. `Write::write_all` and
`BufWriter` are modelled from the standard library.

A process that is stopped is a list of answers that ends: `none` in the results below.
-/

namespace D10

/-! ## Writing -/

/-- What the operating system does with one `write` call of an open file. -/
inductive Answer
  /-- takes that many of the bytes offered (all of them, if there are fewer) -/
  | took (n : Nat)
  /-- `ErrorKind::Interrupted`: nothing was taken, the caller may try again -/
  | interrupted
  | failed (e : String)

/-- An open file: what it holds, and the answers to the calls to come. -/
structure Dev where
  content : List Nat
  plan : List Answer

/-- Offers the bytes of `buf` until all are taken: the loop of `Write::write_all` (std, io/mod.rs) and
of `BufWriter::flush_buf` (std, io/buffered/bufwriter.rs). `zero` is the message of the error
`WriteZero`, the only difference between the two. The file, the bytes not taken, and the outcome. -/
def pump (zero : String) (content buf : List Nat) : List Answer →
    Dev × List Nat × Option (Except String Unit)
  | [] => if buf.isEmpty then (⟨content, []⟩, [], some (.ok ())) else (⟨content, []⟩, buf, none)
  | a :: plan =>
    if buf.isEmpty then (⟨content, a :: plan⟩, [], some (.ok ()))
    else match a with
      | .took 0 => (⟨content, plan⟩, buf, some (.error zero))
      | .took (n + 1) => pump zero (content ++ buf.take (n + 1)) (buf.drop (n + 1)) plan
      | .interrupted => pump zero content buf plan
      | .failed e => (⟨content, plan⟩, buf, some (.error e))

/-- `Write::write_all` on a file. -/
def Dev.write_all (d : Dev) (buf : List Nat) : Dev × Option (Except String Unit) :=
  let (d, _, r) := pump "failed to write whole buffer" d.content buf d.plan
  (d, r)

/-- `BufWriter<File>`: the bytes it holds back, and the file. -/
structure BufW where
  buf : List Nat
  dev : Dev

/-- `BufWriter::new`: room for 8192 bytes. -/
def BufW.capacity : Nat := 8192

/-- `BufWriter::flush_buf`; what was written is removed from the buffer, also after an error. -/
def BufW.flush_buf (w : BufW) : BufW × Option (Except String Unit) :=
  let (d, rest, r) := pump "failed to write the buffered data" w.dev.content w.buf w.dev.plan
  (⟨rest, d⟩, r)

/-- `BufWriter::write_all` (with `write_all_cold`): kept back if there is room; otherwise the buffer is
written first, and a piece as long as the whole buffer is passed on at once. -/
def BufW.write_all (w : BufW) (piece : List Nat) : BufW × Option (Except String Unit) :=
  if w.buf.length + piece.length < BufW.capacity then (⟨w.buf ++ piece, w.dev⟩, some (.ok ()))
  else
    let flushed := if w.buf.length + piece.length > BufW.capacity then w.flush_buf else (w, some (.ok ()))
    match flushed with
    | (w, some (.ok ())) =>
      if piece.length ≥ BufW.capacity then
        let (d, r) := w.dev.write_all piece
        (⟨w.buf, d⟩, r)
      else (⟨w.buf ++ piece, w.dev⟩, some (.ok ()))
    | stopped => stopped

/-- What an encoder does with its `w: W`: it writes pieces with `write_all`, or flushes, goes on as the
answers suggest, and ends with a result. `tail` is what its destructor still writes then; it gives up
at the first error, which nobody hears of (`png` and `gif` write the end of the file this way). -/
inductive Run
  | write (piece : List Nat) (next : Except String Unit → Run)
  | flush (next : Except String Unit → Run)
  | done (result : Except EncodingError Unit) (tail : List (List Nat))

/-- The destructor of the encoder. `false`: the process was stopped. -/
def BufW.write_tail (w : BufW) : List (List Nat) → BufW × Bool
  | [] => (w, true)
  | piece :: rest => match w.write_all piece with
    | (w, some (.ok ())) => w.write_tail rest
    | (w, some (.error _)) => (w, true)
    | (w, none) => (w, false)

/-- `drop(BufWriter)`: tries to write the rest, and ignores errors. -/
def BufW.drop (w : BufW) : Dev × Bool :=
  let (w, r) := w.flush_buf
  (w.dev, r.isSome)

/-- lib.rs:249-251: the encoder writing through the `BufWriter`, which is dropped at the end of
`encode_to_file`. The flush of a file does nothing after `flush_buf`. The result is `none` if the
process was stopped. -/
def Run.exec : Run → BufW → Dev × Option (Except EncodingError Unit)
  | .write piece next, w => match w.write_all piece with
    | (w, some r) => (next r).exec w
    | (w, none) => (w.dev, none)
  | .flush next, w => match w.flush_buf with
    | (w, some r) => (next r).exec w
    | (w, none) => (w.dev, none)
  | .done result tail, w => match w.write_tail tail with
    | (w, false) => (w.dev, none)
    | (w, true) => match w.drop with
      | (d, true) => (d, some result)
      | (d, false) => (d, none)

/-- lib.rs:249-251 of `encode_to_file`: `File::create` leaves an empty file; `plan` are the answers
to the `write` calls. -/
def save_run (run : Run) (plan : List Answer) : Dev × Option (Except EncodingError Unit) :=
  run.exec ⟨[], ⟨[], plan⟩⟩

/-- image.rs:98-102 `save_to_buffer`: the encoder writing to a `Vec<u8>`, which takes everything. -/
def Run.execVec : Run → List Nat → List Nat × Except EncodingError Unit
  | .write piece next, out => (next (.ok ())).execVec (out ++ piece)
  | .flush next, out => (next (.ok ())).execVec out
  | .done result tail, out => (out ++ tail.flatten, result)

/-- image.rs:91-96 `save_to_writer` with an open file as the writer: nothing is kept back. -/
def Run.execDev : Run → Dev → Dev × Option (Except EncodingError Unit)
  | .write piece next, d => match d.write_all piece with
    | (d, some r) => (next r).execDev d
    | (d, none) => (d, none)
  | .flush next, d => (next (.ok ())).execDev d
  | .done result tail, d => match tailDev tail d with
    | (d, true) => (d, some result)
    | (d, false) => (d, none)
where
  tailDev : List (List Nat) → Dev → Dev × Bool
  | [], d => (d, true)
  | piece :: rest, d => match d.write_all piece with
    | (d, some (.ok ())) => tailDev rest d
    | (d, some (.error _)) => (d, true)
    | (d, none) => (d, false)

/-! ## The callback of libwebp -/

/-- `WebPEncode` (C): calls the writer function with pieces of the file, is told each time whether that
went well, and returns whether it succeeded. -/
inductive WebPCalls
  | call (piece : List Nat) (next : Bool → WebPCalls)
  | done (res : Bool)

/-- webp.rs:104-126 (`Writer`, `writer_function`) and webp.rs:177-193: the error of the last
failing write is reported in place of the result of `WebPEncode`. The pointers
are not modelled: the callback gets the bytes and the `Writer`. -/
def webpRun : WebPCalls → Option String → Run
  | .call piece next, err => .write piece fun r => match r with
    | .ok () => webpRun (next true) err
    | .error e => webpRun (next false) (some e)
  | .done res, err => .done (match err with
    | none => if res then .ok () else .error (.Encoding "Error encoding webp file")
    | some e => .error (.IoError e)) []

/-! ## Reading -/

/-- The answer to one `read` call: some bytes (none at the end of the file) or an error, `Interrupted`
included. -/
abbrev Reads := List (Except String (List Nat))

/-- webp.rs:60-69, the loop of `decode_webp`: reads until nothing comes. A `read` that is interrupted
ends it like any other error. -/
def read_loop (data : List Nat) : Reads → Option (Except DecodingError (List Nat))
  | [] => none
  | .error e :: _ => some (.error (.IoError e))
  | .ok buf :: rest => if buf.length > 0 then read_loop (data ++ buf) rest else some (.ok data)

/-- lib.rs:55-76 `Format::from_reader` on any reader: one `read` call with room for 12 bytes, then a
`seek` back. -/
def Format.from_any_reader (first : Except String (List Nat)) (seek : Except String Unit) :
    Except DecodingError Format := do
  let buf ← first.mapError .IoError
  let _ ← seek.mapError .IoError
  Format.sniff buf

end D10
