import Verif.Model.Gen
/-
The driver: source/main.cc with source/exception.cc.
-/
set_option autoImplicit false
namespace PG.Gen
open PG.Proto

/-- The texts of the exceptions of source/proto3.cc. -/
def excText (e : Exc) : Bytes :=
  match e.kind with
  | .alreadyUngot => b!"Already ungot"                    -- 295
  | .invalidSymbol => b!"Invalid symbol"                  -- 367
  | .invalidIdentifier => b!"Invalid identifier"          -- 413
  | .missingOptionName => b!"Missing option name"         -- 532
  | .expectedEqual => b!"Expected '='"                    -- 536, 658, 734
  | .invalidOptionValue => b!"Invalid option value"       -- 556
  | .optionEnd => b!"Expected '='"                        -- 585: a semicolon is meant
  | .missingType => b!"Missing field type"                -- 649
  | .missingName => b!"Missing field name"                -- 654
  | .missingIndex => b!"Missing field index"              -- 661
  | .invalidIndex => b!"Invalid field index"              -- 665
  | .expectedBracket => b!"Expected ']'"                  -- 674
  | .expectedSemicolon => b!"Expected ';'"                -- 680
  | .sameIndex n o => b!"Field '" ++ n ++ b!"' has the same index as '" ++ o ++ b!"'"   -- 685
  | .missingBody => b!"Missing message body"              -- 701
  | .invalidMessage => b!"Invalid message"                -- 717
  | .invalidPackage => b!"Invalid package"                -- 726
  | .invalidVersion => b!"Invalid language version"       -- 739
  | .invalidSyntax => b!"Invalid syntax"                  -- 742
  | .unexpectedToken => b!"Unexpected token"              -- 768
  | .unresolved n => b!"Unable to find message '" ++ n ++ b!"'"   -- 806

/-- The texts of the exceptions of source/cpp/cppgen.cc: 233, 244, 258, 112, 512, 468-469. -/
def GExc.text (e : GExc) : Bytes :=
  match e.kind with
  | .notString => b!"The value for '" ++ e.what ++ b!"' must be a string"
  | .notBoolean => b!"The value for '" ++ e.what ++ b!"' must be a boolean"
  | .quotes => b!"option 'name' in the field '" ++ e.what ++ b!"' must not contain quotes"
  | .nullRef => b!"Message type reference is null"
  | .circular => b!"circular reference with '" ++ e.what ++ b!"'"
  | .tooMany => b!"more than 64 fields in message '" ++ e.what ++ b!"'"

/-- exception.cc:42-47 `cause`. -/
def cause (text : Bytes) (line col : Nat) : Bytes :=
  text ++ b!" (" ++ decNat line ++ b!":" ++ decNat col ++ b!")"

/-- main.cc:85, the line written when an exception is caught. -/
def diagnostic (path text : Bytes) (line col : Nat) : Bytes :=
  path ++ b!":" ++ decNat line ++ b!":" ++ decNat col ++ b!": error: " ++ cause text line col ++ [10]

/-- main.cc:30-35 `main_usage`. -/
def usage : Bytes := b!"protogen " ++ version ++ b!"\nUsage: protogen <proto3 file> [ <output file> ]\n"

/-- main.cc:38-42 `main_error`, as called in lines 50 and 57. -/
def cannotOpen (path : Bytes) : Bytes := b!"ERROR: Unable to open '" ++ path ++ b!"'\n"

/-- What the driver needs of the operating system.  Files have names of their own, since two paths may lead to the same
file. -/
structure World where
  /-- The file a path leads to (or would, if it were created). -/
  file : Bytes → Option Bytes
  /-- The contents of the files that exist. -/
  content : Bytes → Option Bytes
  /-- Whether the file can be opened for reading. -/
  canRead : Bytes → Bool
  /-- Whether the file can be opened for writing, or created. -/
  canWrite : Bytes → Bool
  /-- `realpath(3)`. -/
  realpath : Bytes → Option Bytes
  /-- How many bytes a file can take (`none`: any number). -/
  room : Bytes → Option Nat
  /-- How many bytes standard output can take. -/
  outRoom : Option Nat

/-- `std::ifstream(path)` (C++ library): the file opened, if `good()`. -/
def World.openIn (w : World) (path : Bytes) : Option Bytes :=
  match w.file path with
  | none => none
  | some f => if (w.content f).isSome && w.canRead f then some f else none

/-- `std::ofstream::open(path, ate)` (C++ library): the file opened, if `good()`.  The mode is `out | ate`, which
truncates. -/
def World.openOut (w : World) (path : Bytes) : Option Bytes :=
  match w.file path with
  | none => none
  | some f => if w.canWrite f then some f else none

/-- The contents of the files after one of them got new contents. -/
def put (content : Bytes → Option Bytes) (f text : Bytes) : Bytes → Option Bytes :=
  fun g => if g = f then some text else content g

/-- What a run of the program leaves behind. -/
structure Run where
  /-- The exit status; `none`: the program is still running. -/
  status : Option Nat
  stdout : Bytes
  stderr : Bytes
  /-- The contents of the files. -/
  content : Bytes → Option Bytes

/-- What arrives of a text where there is room for so many bytes: a `std::ostream` that fails to write one byte sets
`badbit` and ignores whatever is printed afterwards (C++ library). -/
def fit (room : Option Nat) (text : Bytes) : Bytes :=
  match room with
  | none => text
  | some n => text.take n

/-- Where the text is printed: main.cc:52-59, 88 (closing the file writes out what is buffered).  The state of the stream is
not looked at again once the file is open. -/
def deliver (w : World) (content : Bytes → Option Bytes) (out : Option Bytes) (status : Option Nat) (text stderr : Bytes) : Run :=
  match out with
  | none => { status, stdout := fit w.outRoom text, stderr, content }
  | some f => { status, stdout := [], stderr, content := put content f (fit (w.room f) text) }

/-- main.cc:61-90.  `input` is the file being read, `out` the one being written (`none`: standard output); `content` is
what the files contain at this point, that is, after `out` was truncated.  Exit status 134 stands for an exception that is not caught. -/
def work (rt : Runtime) (N : Nat) (w : World) (path input : Bytes) (out : Option Bytes)
    (content : Bytes → Option Bytes) : Run :=
  match w.realpath path with
  | none => { status := some 1, stdout := [], stderr := [], content }
  | some full =>
    match compile N full ((content input).getD []) with
    | .generated e =>
      (match e.res with
        | .ok () => deliver w content out (some 0) (textOf rt e.calls) []
        | .exc x => deliver w content out (some 1) (textOf rt e.calls) (diagnostic full x.text x.line x.col)
        | .running => deliver w content out none (textOf rt e.calls) [])
    | .rejected x => deliver w content out (some 1) [] (diagnostic full (excText x) x.line x.col)
    | .runtime => deliver w content out (some 134) [] []
    | .running => deliver w content out none [] []

/-- main.cc:45-91 `main`; `argv` without the name of the program. -/
def main (rt : Runtime) (N : Nat) (w : World) (argv : List Bytes) : Run :=
  match argv with
  | [i] =>
    (match w.openIn i with
      | none => { status := some 1, stdout := [], stderr := cannotOpen i, content := w.content }
      | some fi => work rt N w i fi none w.content)
  | [i, o] =>
    (match w.openIn i with
      | none => { status := some 1, stdout := [], stderr := cannotOpen i, content := w.content }
      | some fi =>
        match w.openOut o with
        | none => { status := some 1, stdout := [], stderr := cannotOpen o, content := w.content }
        | some fo => work rt N w i fi (some fo) (put w.content fo []))
  | _ => { status := some 1, stdout := [], stderr := usage, content := w.content }

end PG.Gen
