import Verif.Str

/-! # Where the debugger opens after a failure: switchyard/llnettest.py 107-138

The traceback is the list of its frames, the oldest first; of each, the text `str(xtb.tb_frame.f_code)` is made from the
name of the function, the address of its code object (any text), its file and its line. -/

namespace SY

/-- A frame of a traceback. -/
structure TbFrame where
  name : List Char
  addr : List Char
  file : List Char
  line : Nat
deriving DecidableEq, Repr

/-- `str(f_code)`, llnettest.py 122: the text CPython gives a code object. -/
def TbFrame.code (f : TbFrame) : List Char :=
  "<code object ".toList ++ f.name ++ " at 0x".toList ++ f.addr ++ ", file \"".toList ++ f.file ++ "\", line ".toList ++
    natText f.line ++ ">".toList

/-- `sub in s` for texts. -/
def textIn (sub : List Char) : List Char → Bool
  | [] => sub.isPrefixOf []
  | c :: cs => sub.isPrefixOf (c :: cs) || textIn sub cs

/-- `syscode`, llnettest.py 125-126. -/
def TbFrame.sys (f : TbFrame) : Bool :=
  textIn "switchyard/llnettest.py".toList f.code || textIn "switchyard/lib/testing.py".toList f.code

/-- The loop over the traceback, llnettest.py 119-128: `(usercode, height)`. -/
def tbScan : List TbFrame → Nat → Nat → Nat × Nat
  | [], usercode, height => (usercode, height)
  | f :: fs, usercode, height => tbScan fs (if f.sys then usercode else height + 1) (height + 1)

/-- `p.onecmd('up')`: the index of the current frame; at the oldest frame it only prints an error. -/
def pdbUp (cur : Nat) : Nat := if cur = 0 then cur else cur - 1

/-- `for i in range(n): p.onecmd('up')`, llnettest.py 135-136. -/
def pdbUps : Nat → Nat → Nat
  | 0, cur => cur
  | n + 1, cur => pdbUps n (pdbUp cur)

/-- `_prepare_debugger`, llnettest.py 119-136: the frame in which the debugger is when its command loop begins.  The debugger
starts at the newest frame (`p.setup(None, tb)`). -/
def prepareDebugger (tb : List TbFrame) : Option TbFrame :=
  tb[pdbUps ((tbScan tb 0 0).2 - (tbScan tb 0 0).1) (tb.length - 1)]?

end SY
