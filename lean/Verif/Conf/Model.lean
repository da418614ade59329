/-!
# Configuration lines (src/conf.c, logger.c 40-65, 219-244)

A line is the memory from `line_ptr` on: the characters, the terminating 0, and whatever follows it in the array.  Running
off the end of that list, or writing past `opt[20]`, `temp1[20]`, `temp2[20]`, `string[1024]`, is the outcome `oob`.
Characters are the numbers 0..255.  `isalnum` and friends are those of the C locale; a negative `char` argument, formally
undefined, is taken as "no" (as glibc does).
-/
namespace Verif.Conf

inductive Res (α : Type) where
  | ok (a : α)
  /-- read or write outside an array -/
  | oob
  /-- `free` of an object that was not allocated -/
  | badFree
  /-- signed overflow -/
  | ovf
  /-- does not return -/
  | hang
deriving Repr, DecidableEq

@[inline] def Res.bind {α β : Type} (x : Res α) (f : α → Res β) : Res β :=
  match x with
  | .ok a => f a
  | .oob => .oob
  | .badFree => .badFree
  | .ovf => .ovf
  | .hang => .hang

instance : Monad Res where
  pure := .ok
  bind := Res.bind

/-! ## Character classes (ctype.h, C locale) -/

def isspace (c : Nat) : Bool := c == 32 || (9 ≤ c && c ≤ 13)
def isdigit (c : Nat) : Bool := 48 ≤ c && c ≤ 57
def isalpha (c : Nat) : Bool := (65 ≤ c && c ≤ 90) || (97 ≤ c && c ≤ 122)
def isalnum (c : Nat) : Bool := isalpha c || isdigit c
def isxdigit (c : Nat) : Bool := isdigit c || (65 ≤ c && c ≤ 70) || (97 ≤ c && c ≤ 102)
def toupper (c : Nat) : Nat := if 97 ≤ c ∧ c ≤ 122 then c - 32 else c

/-- `struct _option`, conf.h 32-40.  Strings are kept without their terminating 0. -/
structure Opt where
  opt : List Nat
  flags : Nat
  model : Nat
  dash : Nat
  slash : Nat
  addr : Nat
  str : List Nat
deriving Repr, DecidableEq

/-- `while(isspace(*line_ptr)) line_ptr++;`, conf.c 108-109, 183-184, 221-222, 270-271. -/
def skip : List Nat → Res (List Nat)
  | [] => .oob
  | c :: l => if isspace c then skip l else .ok (c :: l)

/-- "If comment or end of line, we got nothing", conf.c 111-112, 186-187, 226-227, 273-274. -/
def atEnd : List Nat → Bool
  | [] => true
  | c :: _ => c == 35 || c == 10 || c == 0

/-- The decimal loops of get_model and get_integer, conf.c 157-159, 166-168 and 308-310. -/
def decStep (i c : Nat) : Res Nat :=
  if i * 10 + (c - 48) ≤ 2147483647 then .ok (i * 10 + (c - 48)) else .ovf

/-- conf.c 155-159, 164-168: leading digits of a suffix. -/
def decPrefix : List Nat → Nat → Res Nat
  | [], i => .ok i
  | c :: l, i => if isdigit c then do
      let i ← decStep i c
      decPrefix l i
    else .ok i

/-- The three targets of `p` in get_model, conf.c 114-140. -/
structure MS where
  cur : Nat
  f1 : Bool
  f2 : Bool
  name : List Nat
  t1 : List Nat
  t2 : List Nat
deriving Repr, DecidableEq

def MS.len (s : MS) : Nat := if s.cur = 0 then s.name.length else if s.cur = 1 then s.t1.length else s.t2.length

/-- `*p = toupper(*line_ptr); p++; len++;`, conf.c 131-133. -/
def MS.push (s : MS) (c : Nat) : MS :=
  if s.cur = 0 then { s with name := s.name ++ [c] }
  else if s.cur = 1 then { s with t1 := s.t1 ++ [c] } else { s with t2 := s.t2 ++ [c] }

/-- conf.c 116-140.  `none`: the error exit, which frees the caller's record. -/
def modelLoop : List Nat → MS → Res (MS × List Nat)
  | [], _ => .oob
  | c :: l, s =>
    if s.len < 20 ∧ (isalnum c = true ∨ c = 45 ∨ c = 47) then
      if c = 45 ∧ s.f1 = false then modelLoop l { s with f1 := true, cur := 1, t1 := [] }
      else if c = 47 ∧ s.f2 = false then modelLoop l { s with f2 := true, cur := 2, t2 := [] }
      else if isalnum c then modelLoop l (s.push (toupper c))
      else .badFree
    else .ok (s, c :: l)

/-- conf.c 143-152: a name of digits with one final letter. -/
def splitModel (name : List Nat) : Option (List Nat × Nat) :=
  match name with
  | [] => none
  | c :: _ =>
    if isdigit c then
      match name.dropWhile isdigit with
      | [m] => if isalpha m then some (name.takeWhile isdigit, m) else none
      | _ => none
    else none

/-- get_model, conf.c 99-173.  The overflow of `dash_num` and `slash_num` is `ovf`.  `load_config` and `load_line` pass a
record that was never initialised, or holds the previous line: `o`. -/
def getModel (o : Opt) (l : List Nat) : Res (Bool × Opt × List Nat) := do
  let l ← skip l
  if atEnd l then .ok (false, o, l)
  else
    let (s, l) ← modelLoop l { cur := 0, f1 := false, f2 := false, name := [], t1 := [], t2 := [] }
    if s.len ≥ 20 then .oob
    else
      let o := match splitModel s.name with
        | some (n, m) => { o with opt := n, model := m }
        | none => { o with opt := s.name }
      let d ← (if s.f1 then decPrefix s.t1 0 else .ok o.dash)
      let e ← (if s.f2 then decPrefix s.t2 0 else .ok o.slash)
      .ok (true, { o with dash := d, slash := e, flags := (if s.f1 then 1 else 0) + (if s.f2 then 2 else 0) }, l)

/-- conf.c 190-195.  `len` is never advanced, so only the array bounds the loop. -/
def hexLoop : List Nat → List Nat → Res (List Nat × List Nat)
  | [], _ => .oob
  | c :: l, acc =>
    if isxdigit c then (if acc.length < 20 then hexLoop l (acc ++ [toupper c]) else .oob)
    else .ok (acc, c :: l)

/-- conf.c 200-208 on `int`: the shift drops high bits (formally undefined from the eighth digit on). -/
def hexStep (i c : Nat) : Nat :=
  (i * 16 % 4294967296 + (if isalpha c then c - 65 + 10 else c - 48)) % 4294967296

/-- get_addr, conf.c 175-211. -/
def getAddr (o : Opt) (l : List Nat) : Res (Bool × Opt × List Nat) := do
  let l ← skip l
  if atEnd l then .ok (false, o, l)
  else
    let (t, l) ← hexLoop l []
    if t.length ≥ 20 then .oob
    else if t = [] then .ok (false, o, l)
    else .ok (true, { o with addr := t.foldl hexStep 0 % 65536 }, l)

/-- conf.c 233-256 in a quoted value.  A doubled quote is stored but `p` is not advanced (conf.c 237), so the next store
overwrites it. -/
def quoted : List Nat → List Nat → Nat → Res (List Nat × List Nat)
  | l, str, len =>
    if len ≥ 1024 then (if str.length < 1024 then .ok (str, l) else .oob)
    else match l with
      | [] => .oob
      | c :: l =>
        if c = 34 then
          match l with
          | [] => .oob
          | d :: m =>
            if d = 34 then quoted m str (len + 1)
            else if isspace d ∨ d = 10 ∨ d = 0 then .ok (str, d :: m)
            else quoted (d :: m) str len
        else quoted l (str ++ [c]) (len + 1)

/-- conf.c 233-256 in a bare value. -/
def bare : List Nat → List Nat → Res (List Nat × List Nat)
  | l, str =>
    if str.length ≥ 1024 then .oob
    else match l with
      | [] => .oob
      | c :: l =>
        if isspace c ∨ c = 10 ∨ c = 0 then .ok (str, c :: l)
        else bare l (str ++ [toupper c])

/-- get_string, conf.c 213-258. -/
def getString (o : Opt) (l : List Nat) : Res (Bool × Opt × List Nat) := do
  let l ← skip l
  if atEnd l then .ok (false, o, l)
  else match l with
    | 34 :: m => do
      let (s, l) ← quoted m [] 0
      .ok (true, { o with str := s }, l)
    | _ => do
      let (s, l) ← bare l []
      .ok (true, { o with str := s }, l)

/-- conf.c 278-284. -/
def nameLoop : List Nat → List Nat → Res (List Nat × List Nat)
  | [], _ => .oob
  | c :: l, acc =>
    if acc.length < 20 ∧ (isalnum c = true ∨ c = 45) then nameLoop l (acc ++ [toupper c])
    else .ok (acc, c :: l)

/-- get_option, conf.c 260-295. -/
def getOption (o : Opt) (l : List Nat) : Res (Bool × Opt × List Nat) := do
  let o := { o with opt := [], str := [], flags := 0 }
  let l ← skip l
  if atEnd l then .ok (false, o, l)
  else
    let (n, l) ← nameLoop l []
    if n.length ≥ 20 then .oob
    else
      let o := { o with opt := n }
      match l with
      | [] => .oob
      | c :: m =>
        if c = 61 then do
          let (r, o, l) ← getString o m
          if r then .ok (true, { o with flags := 1 }, l) else .ok (false, o, l)
        else .ok (true, o, c :: m)

/-- conf.c 308-315. -/
def intLoop : List Nat → Nat → Res (Option Nat)
  | [], i => .ok (some i)
  | c :: l, i => if isdigit c then do
      let i ← decStep i c
      intLoop l i
    else .ok none

/-- get_integer, conf.c 297-317; `none` is the result 0. -/
def getInteger (o : Opt) : Res (Option Nat) :=
  if o.str = [] then .ok none else intLoop o.str 0

/-- get_index, conf.c 319-335. -/
def getIndex (o : Opt) (list : List (List Nat)) : Int :=
  if o.str = [] then 0
  else match list.findIdx? (· == o.str) with
    | some i => i
    | none => -1

/-- `while (get_option(&opts)) { ... }`, the loop of every create function (model2030.c 61-70, panel1442.c 91-114,
model2415.c 1369-1390, 1439-1448, model1443.c 1096-1123, panel2844.c 160-173, model2841.c 1100, model1052.c 1065, logger.c 226-242).  `f` is the body: `none`
leaves with the result 0. -/
def options {σ : Type} (f : Opt → σ → Option σ) : Nat → Opt → List Nat → σ → Res (Option σ × List Nat)
  | n, o, l, s => do
    let (r, o, l) ← getOption o l
    if r then
      match f o s with
      | none => .ok (none, l)
      | some s =>
        match n with
        | 0 => .hang
        | n + 1 => options f n o l s
    else .ok (some s, l)

/-- log_type, logger.c 41-65. -/
def logTypes : List (List Nat × Nat) :=
  [("INFO", 1), ("WARN", 2), ("ERROR", 4), ("TRACE", 8), ("ITRACE", 0x10), ("MICRO", 0x20), ("REG", 0x40), ("MEM", 0x80),
   ("MPXCHN", 0x100), ("SELCHN", 0x200), ("DEVICE", 0x400), ("CONSOLE", 0x800), ("TAPE", 0x1000), ("DISK", 0x2000),
   ("CARD", 0x4000), ("DMICRO", 0x8000), ("DREG", 0x10000), ("EVENT", 0x20000), ("FREG", 0x40000)].map
    fun p => (p.1.toList.map Char.toNat, p.2)

/-- Body of logLEVEL_create, logger.c 227-241: the state is `log_level` and the result `r`.  Unknown names are reported and
the loop goes on. -/
def logBody (o : Opt) (s : Nat × Bool) : Option (Nat × Bool) :=
  if o.flags ≠ 0 then some (s.1, false)
  else match logTypes.find? (fun t => t.1 == o.opt) with
    | some t => some (s.1 ||| t.2, s.2)
    | none => some (s.1, false)

/-- logLEVEL_create, logger.c 219-244; `lv` is `log_level` before, the result `log_level` after and the return value. -/
def logLevel (fuel : Nat) (o : Opt) (l : List Nat) (lv : Nat) : Res (Option (Nat × Bool) × List Nat) :=
  options logBody fuel o l (lv, true)

end Verif.Conf
