import Verif.Markdown
import Verif.Utf8

/-!
# `std::io`: reading text from a file

A file that was opened delivers bytes; the parsers read them as text, line by line or as a whole.
-/

namespace Reqtrace

/-- An opened file (`fs::File` in an `io::BufReader`): the bytes it delivers, and the text of the error that ends the
reading, if it does not end with the end of the file. -/
structure File where
  bytes : Bytes
  failure : Option Str
  deriving DecidableEq, Repr

/-- `Display` of the error for text that is not UTF-8 (`io::Error::INVALID_UTF8`) -/
def invalidUtf8 : Str := c!"stream did not contain valid UTF-8"

/-- The pieces up to and including each line feed (`BufRead::read_until`) -/
def byteLines : Bytes → List Bytes
  | [] => []
  | b :: bs =>
    if b = 10 then [b] :: byteLines bs
    else match byteLines bs with
      | [] => [[b]]
      | l :: ls => (b :: l) :: ls

/-- Decodes line by line up to the first line that is not UTF-8; `failure` is what follows the last line. -/
def decodeLines (failure : Option Str) : List Bytes → Source
  | [] => ⟨[], failure⟩
  | l :: ls =>
    match Utf8.decode l with
    | none => ⟨[], some invalidUtf8⟩
    | some t => let rest := decodeLines failure ls
      ⟨t ++ rest.text, rest.failure⟩

/-- What repeated `BufRead::read_line` delivers (also `BufRead::lines`): of a file whose reading fails, the lines that
were complete before the failure -/
def File.lines (f : File) : Source :=
  match f.failure with
  | none => decodeLines none (byteLines f.bytes)
  | some e => decodeLines (some e) ((byteLines f.bytes).filter (fun l => l.getLast? == some 10))

/-- What `Read::read_to_string` delivers; on a failure the text is not used. -/
def File.whole (f : File) : Source :=
  match f.failure with
  | some e => ⟨[], some e⟩
  | none => match Utf8.decode f.bytes with
    | some t => ⟨t, none⟩
    | none => ⟨[], some invalidUtf8⟩

end Reqtrace
