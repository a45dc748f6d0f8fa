import Verif.Model.Cpp.Ast
import Verif.Model.Cpp.SourceWindows

/-!
# The syntax trees of what the library has for Windows

What the parser makes of the source text (written by `tools/gen_ast.txt`, and proved to be right in
`Verif.Lemmas.Cpp.Windows`).
-/

namespace Ansak.Cpp.Ast

/-- `interface/string.hxx:556-559`. -/
def isUtf16_8_win_body : Stmt :=
  (.seq (.ret (.call (name% "isUtf8") (.cons (.var (name% "test")) (.cons (.var (name% "kUtf16")) .nil))))
  .skip)

/-- `interface/string.hxx:560`. -/
def isUtf16_S8_win_body : Stmt :=
  (.seq (.ret (.call (name% "isUtf16") (.cons (.method (name% "test") (name% "c_str") .nil) .nil)))
  .skip)

/-- `interface/string.hxx:562-565`. -/
def isUcs2_8_win_body : Stmt :=
  (.seq (.ret (.call (name% "isUtf8") (.cons (.var (name% "test")) (.cons (.var (name% "kUcs2")) .nil))))
  .skip)

/-- `interface/string.hxx:566`. -/
def isUcs2_S8_win_body : Stmt :=
  (.seq (.ret (.call (name% "isUcs2") (.cons (.method (name% "test") (name% "c_str") .nil) .nil)))
  .skip)

/-- `interface/string.hxx:568-571`. -/
def isUcs4_8_win_body : Stmt :=
  (.seq (.ret (.call (name% "isUtf8") (.cons (.var (name% "test")) (.cons (.var (name% "kUcs4")) .nil))))
  .skip)

/-- `interface/string.hxx:572`. -/
def isUcs4_S8_win_body : Stmt :=
  (.seq (.ret (.call (name% "isUcs4") (.cons (.method (name% "test") (name% "c_str") .nil) .nil)))
  .skip)

/-- `interface/string.hxx:747-757`. -/
def toUtf8_8_win_body : Stmt :=
  (.seq (.ite (.call (name% "isUtf8") (.cons (.var (name% "src")) .nil))
    (.block
     (.seq (.ret (.make (.str (.prim .char)) (.cons (.var (name% "src")) .nil)))
     .skip))
    (.block
     (.seq (.ret (.make (.str (.prim .char)) .nil))
     .skip)))
  .skip)

/-- `interface/string.hxx:759`. -/
def toUtf8_S8_win_body : Stmt :=
  (.seq (.ret (.call (name% "toUtf8") (.cons (.method (name% "src") (name% "c_str") .nil) .nil)))
  .skip)

/-- `interface/string.hxx:545-573`. -/
def itemsWindows0 : List Item :=
  [.func ⟨(nat_lit 0), (name% "isUtf16"), (.prim .bool), [⟨(.ptr (.prim .char)), (name% "test"), none⟩], [], (some isUtf16_8_win_body)⟩,
   .func ⟨(nat_lit 0), (name% "isUtf16"), (.prim .bool), [⟨(.str (.prim .char)), (name% "test"), none⟩], [], (some isUtf16_S8_win_body)⟩,
   .func ⟨(nat_lit 0), (name% "isUcs2"), (.prim .bool), [⟨(.ptr (.prim .char)), (name% "test"), none⟩], [], (some isUcs2_8_win_body)⟩,
   .func ⟨(nat_lit 0), (name% "isUcs2"), (.prim .bool), [⟨(.str (.prim .char)), (name% "test"), none⟩], [], (some isUcs2_S8_win_body)⟩,
   .func ⟨(nat_lit 0), (name% "isUcs4"), (.prim .bool), [⟨(.ptr (.prim .char)), (name% "test"), none⟩], [], (some isUcs4_8_win_body)⟩,
   .func ⟨(nat_lit 0), (name% "isUcs4"), (.prim .bool), [⟨(.str (.prim .char)), (name% "test"), none⟩], [], (some isUcs4_S8_win_body)⟩]

/-- `interface/string.hxx:743-760`. -/
def itemsWindows1 : List Item :=
  [.func ⟨(nat_lit 0), (name% "toUtf8"), (.str (.prim .char)), [⟨(.ptr (.prim .char)), (name% "src"), none⟩], [], (some toUtf8_8_win_body)⟩,
   .func ⟨(nat_lit 0), (name% "toUtf8"), (.str (.prim .char)), [⟨(.str (.prim .char)), (name% "src"), none⟩], [], (some toUtf8_S8_win_body)⟩]

/-- The pieces together (`Source.windows`). -/
def itemsWindows : List Item :=
  itemsWindows0.append <|
  itemsWindows1.append []

/-- `interface/string.hxx:556-559`. -/
def isUtf16_8_win : Fun :=
  ⟨(nat_lit 0), (name% "isUtf16"), (.prim .bool), [⟨(.ptr (.prim .char)), (name% "test"), none⟩], [], (some isUtf16_8_win_body)⟩

/-- `interface/string.hxx:560`. -/
def isUtf16_S8_win : Fun :=
  ⟨(nat_lit 0), (name% "isUtf16"), (.prim .bool), [⟨(.str (.prim .char)), (name% "test"), none⟩], [], (some isUtf16_S8_win_body)⟩

/-- `interface/string.hxx:562-565`. -/
def isUcs2_8_win : Fun :=
  ⟨(nat_lit 0), (name% "isUcs2"), (.prim .bool), [⟨(.ptr (.prim .char)), (name% "test"), none⟩], [], (some isUcs2_8_win_body)⟩

/-- `interface/string.hxx:566`. -/
def isUcs2_S8_win : Fun :=
  ⟨(nat_lit 0), (name% "isUcs2"), (.prim .bool), [⟨(.str (.prim .char)), (name% "test"), none⟩], [], (some isUcs2_S8_win_body)⟩

/-- `interface/string.hxx:568-571`. -/
def isUcs4_8_win : Fun :=
  ⟨(nat_lit 0), (name% "isUcs4"), (.prim .bool), [⟨(.ptr (.prim .char)), (name% "test"), none⟩], [], (some isUcs4_8_win_body)⟩

/-- `interface/string.hxx:572`. -/
def isUcs4_S8_win : Fun :=
  ⟨(nat_lit 0), (name% "isUcs4"), (.prim .bool), [⟨(.str (.prim .char)), (name% "test"), none⟩], [], (some isUcs4_S8_win_body)⟩

/-- `interface/string.hxx:747-757`. -/
def toUtf8_8_win : Fun :=
  ⟨(nat_lit 0), (name% "toUtf8"), (.str (.prim .char)), [⟨(.ptr (.prim .char)), (name% "src"), none⟩], [], (some toUtf8_8_win_body)⟩

/-- `interface/string.hxx:759`. -/
def toUtf8_S8_win : Fun :=
  ⟨(nat_lit 0), (name% "toUtf8"), (.str (.prim .char)), [⟨(.str (.prim .char)), (name% "src"), none⟩], [], (some toUtf8_S8_win_body)⟩

/-- The functions that Windows always has. -/
def funsWindows : List Fun :=
  [isUtf16_8_win,
   isUtf16_S8_win,
   isUcs2_8_win,
   isUcs2_S8_win,
   isUcs4_8_win,
   isUcs4_S8_win,
   toUtf8_8_win,
   toUtf8_S8_win]

/-- `interface/string.hxx:576-579`. -/
def isTstring_S8_mbcs_body : Stmt :=
  (.seq (.ret (.call (name% "isUtf8") (.cons (.var (name% "test")) (.cons (.var (name% "kUtf16")) .nil))))
  .skip)

/-- `interface/string.hxx:581-584`. -/
def isTstring_8_mbcs_body : Stmt :=
  (.seq (.ret (.call (name% "isUtf8") (.cons (.var (name% "test")) (.cons (.var (name% "kUtf16")) .nil))))
  .skip)

/-- `interface/string.hxx:586-589`. -/
def isTstring_S16_mbcs_body : Stmt :=
  (.seq (.ret (.call (name% "isUtf16") (.cons (.var (name% "test")) .nil)))
  .skip)

/-- `interface/string.hxx:598-601`. -/
def isTstring_16_mbcs_body : Stmt :=
  (.seq (.ret (.call (name% "isUtf16") (.cons (.var (name% "test")) .nil)))
  .skip)

/-- `interface/string.hxx:603-606`. -/
def isTstring_S32_mbcs_body : Stmt :=
  (.seq (.ret (.call (name% "isUcs4") (.cons (.var (name% "test")) (.cons (.var (name% "kUtf16")) .nil))))
  .skip)

/-- `interface/string.hxx:608-611`. -/
def isTstring_32_mbcs_body : Stmt :=
  (.seq (.ret (.call (name% "isUcs4") (.cons (.var (name% "test")) (.cons (.var (name% "kUtf16")) .nil))))
  .skip)

/-- `interface/string.hxx:574-612`. -/
def itemsMbcsIs0 : List Item :=
  [.func ⟨(nat_lit 0), (name% "isTstring"), (.prim .bool), [⟨(.str (.prim .char)), (name% "test"), none⟩], [], (some isTstring_S8_mbcs_body)⟩,
   .func ⟨(nat_lit 0), (name% "isTstring"), (.prim .bool), [⟨(.ptr (.prim .char)), (name% "test"), none⟩], [], (some isTstring_8_mbcs_body)⟩,
   .func ⟨(nat_lit 0), (name% "isTstring"), (.prim .bool), [⟨(.str (.prim .c16)), (name% "test"), none⟩], [], (some isTstring_S16_mbcs_body)⟩,
   .func ⟨(nat_lit 0), (name% "isTstring"), (.prim .bool), [⟨(.ptr (.prim .c16)), (name% "test"), none⟩], [], (some isTstring_16_mbcs_body)⟩,
   .func ⟨(nat_lit 0), (name% "isTstring"), (.prim .bool), [⟨(.str (.prim .c32)), (name% "test"), none⟩], [], (some isTstring_S32_mbcs_body)⟩,
   .func ⟨(nat_lit 0), (name% "isTstring"), (.prim .bool), [⟨(.ptr (.prim .c32)), (name% "test"), none⟩], [], (some isTstring_32_mbcs_body)⟩]

/-- The pieces together (`Source.mbcsIs`). -/
def itemsMbcsIs : List Item :=
  itemsMbcsIs0.append []

/-- `interface/string.hxx:763-766`. -/
def toTstring_S8_mbcs_body : Stmt :=
  (.seq (.ret (.call (name% "toTstring") (.cons (.method (name% "test") (name% "c_str") .nil) .nil)))
  .skip)

/-- `interface/string.hxx:768-778`. -/
def toTstring_8_mbcs_body : Stmt :=
  (.seq (.ite (.call (name% "isUtf8") (.cons (.var (name% "test")) (.cons (.var (name% "kAscii")) .nil)))
    (.block
     (.seq (.ret (.make (.str (.prim .char)) (.cons (.var (name% "test")) .nil)))
     .skip))
    (.block
     (.seq (.ret (.make (.str (.prim .char)) .nil))
     .skip)))
  .skip)

/-- `interface/string.hxx:780-783`. -/
def toTstring_S16_mbcs_body : Stmt :=
  (.seq (.ret (.call (name% "toTstring") (.cons (.method (name% "test") (name% "c_str") .nil) .nil)))
  .skip)

/-- `interface/string.hxx:792-802`. -/
def toTstring_16_mbcs_body : Stmt :=
  (.seq (.ite (.call (name% "isUtf16") (.cons (.var (name% "test")) (.cons (.var (name% "kAscii")) .nil)))
    (.block
     (.seq (.ret (.make (.str (.prim .char)) (.cons (.valueMethod (.call (name% "toUtf8") (.cons (.var (name% "test")) .nil)) (name% "c_str") .nil) .nil)))
     .skip))
    (.block
     (.seq (.ret (.make (.str (.prim .char)) .nil))
     .skip)))
  .skip)

/-- `interface/string.hxx:804-807`. -/
def toTstring_S32_mbcs_body : Stmt :=
  (.seq (.ret (.call (name% "toTstring") (.cons (.method (name% "test") (name% "c_str") .nil) .nil)))
  .skip)

/-- `interface/string.hxx:809-819`. -/
def toTstring_32_mbcs_body : Stmt :=
  (.seq (.ite (.call (name% "isUcs4") (.cons (.var (name% "test")) (.cons (.var (name% "kAscii")) .nil)))
    (.block
     (.seq (.ret (.make (.str (.prim .char)) (.cons (.valueMethod (.call (name% "toUtf8") (.cons (.var (name% "test")) .nil)) (name% "c_str") .nil) .nil)))
     .skip))
    (.block
     (.seq (.ret (.make (.str (.prim .char)) .nil))
     .skip)))
  .skip)

/-- `interface/string.hxx:761-766`. -/
def itemsMbcsTo0 : List Item :=
  [.func ⟨(nat_lit 0), (name% "toTstring"), (.str (.prim .char)), [⟨(.str (.prim .char)), (name% "test"), none⟩], [], (some toTstring_S8_mbcs_body)⟩]

/-- `interface/string.hxx:767-778`. -/
def itemsMbcsTo1 : List Item :=
  [.func ⟨(nat_lit 0), (name% "toTstring"), (.str (.prim .char)), [⟨(.ptr (.prim .char)), (name% "test"), none⟩], [], (some toTstring_8_mbcs_body)⟩]

/-- `interface/string.hxx:779-783`. -/
def itemsMbcsTo2 : List Item :=
  [.func ⟨(nat_lit 0), (name% "toTstring"), (.str (.prim .char)), [⟨(.str (.prim .c16)), (name% "test"), none⟩], [], (some toTstring_S16_mbcs_body)⟩]

/-- `interface/string.hxx:784-802`. -/
def itemsMbcsTo3 : List Item :=
  [.func ⟨(nat_lit 0), (name% "toTstring"), (.str (.prim .char)), [⟨(.ptr (.prim .c16)), (name% "test"), none⟩], [], (some toTstring_16_mbcs_body)⟩]

/-- `interface/string.hxx:803-807`. -/
def itemsMbcsTo4 : List Item :=
  [.func ⟨(nat_lit 0), (name% "toTstring"), (.str (.prim .char)), [⟨(.str (.prim .c32)), (name% "test"), none⟩], [], (some toTstring_S32_mbcs_body)⟩]

/-- `interface/string.hxx:808-820`. -/
def itemsMbcsTo5 : List Item :=
  [.func ⟨(nat_lit 0), (name% "toTstring"), (.str (.prim .char)), [⟨(.ptr (.prim .c32)), (name% "test"), none⟩], [], (some toTstring_32_mbcs_body)⟩]

/-- The pieces together (`Source.mbcsTo`). -/
def itemsMbcsTo : List Item :=
  itemsMbcsTo0.append <|
  itemsMbcsTo1.append <|
  itemsMbcsTo2.append <|
  itemsMbcsTo3.append <|
  itemsMbcsTo4.append <|
  itemsMbcsTo5.append []

/-- `interface/string.hxx:576-579`. -/
def isTstring_S8_mbcs : Fun :=
  ⟨(nat_lit 0), (name% "isTstring"), (.prim .bool), [⟨(.str (.prim .char)), (name% "test"), none⟩], [], (some isTstring_S8_mbcs_body)⟩

/-- `interface/string.hxx:581-584`. -/
def isTstring_8_mbcs : Fun :=
  ⟨(nat_lit 0), (name% "isTstring"), (.prim .bool), [⟨(.ptr (.prim .char)), (name% "test"), none⟩], [], (some isTstring_8_mbcs_body)⟩

/-- `interface/string.hxx:586-589`. -/
def isTstring_S16_mbcs : Fun :=
  ⟨(nat_lit 0), (name% "isTstring"), (.prim .bool), [⟨(.str (.prim .c16)), (name% "test"), none⟩], [], (some isTstring_S16_mbcs_body)⟩

/-- `interface/string.hxx:598-601`. -/
def isTstring_16_mbcs : Fun :=
  ⟨(nat_lit 0), (name% "isTstring"), (.prim .bool), [⟨(.ptr (.prim .c16)), (name% "test"), none⟩], [], (some isTstring_16_mbcs_body)⟩

/-- `interface/string.hxx:603-606`. -/
def isTstring_S32_mbcs : Fun :=
  ⟨(nat_lit 0), (name% "isTstring"), (.prim .bool), [⟨(.str (.prim .c32)), (name% "test"), none⟩], [], (some isTstring_S32_mbcs_body)⟩

/-- `interface/string.hxx:608-611`. -/
def isTstring_32_mbcs : Fun :=
  ⟨(nat_lit 0), (name% "isTstring"), (.prim .bool), [⟨(.ptr (.prim .c32)), (name% "test"), none⟩], [], (some isTstring_32_mbcs_body)⟩

/-- `interface/string.hxx:763-766`. -/
def toTstring_S8_mbcs : Fun :=
  ⟨(nat_lit 0), (name% "toTstring"), (.str (.prim .char)), [⟨(.str (.prim .char)), (name% "test"), none⟩], [], (some toTstring_S8_mbcs_body)⟩

/-- `interface/string.hxx:768-778`. -/
def toTstring_8_mbcs : Fun :=
  ⟨(nat_lit 0), (name% "toTstring"), (.str (.prim .char)), [⟨(.ptr (.prim .char)), (name% "test"), none⟩], [], (some toTstring_8_mbcs_body)⟩

/-- `interface/string.hxx:780-783`. -/
def toTstring_S16_mbcs : Fun :=
  ⟨(nat_lit 0), (name% "toTstring"), (.str (.prim .char)), [⟨(.str (.prim .c16)), (name% "test"), none⟩], [], (some toTstring_S16_mbcs_body)⟩

/-- `interface/string.hxx:792-802`. -/
def toTstring_16_mbcs : Fun :=
  ⟨(nat_lit 0), (name% "toTstring"), (.str (.prim .char)), [⟨(.ptr (.prim .c16)), (name% "test"), none⟩], [], (some toTstring_16_mbcs_body)⟩

/-- `interface/string.hxx:804-807`. -/
def toTstring_S32_mbcs : Fun :=
  ⟨(nat_lit 0), (name% "toTstring"), (.str (.prim .char)), [⟨(.str (.prim .c32)), (name% "test"), none⟩], [], (some toTstring_S32_mbcs_body)⟩

/-- `interface/string.hxx:809-819`. -/
def toTstring_32_mbcs : Fun :=
  ⟨(nat_lit 0), (name% "toTstring"), (.str (.prim .char)), [⟨(.ptr (.prim .c32)), (name% "test"), none⟩], [], (some toTstring_32_mbcs_body)⟩

/-- The functions for `_MBCS`. -/
def funsMbcs : List Fun :=
  [isTstring_S8_mbcs,
   isTstring_8_mbcs,
   isTstring_S16_mbcs,
   isTstring_16_mbcs,
   isTstring_S32_mbcs,
   isTstring_32_mbcs,
   toTstring_S8_mbcs,
   toTstring_8_mbcs,
   toTstring_S16_mbcs,
   toTstring_16_mbcs,
   toTstring_S32_mbcs,
   toTstring_32_mbcs]

/-- `interface/string.hxx:615-618`. -/
def isTstring_S8_unicode_body : Stmt :=
  (.seq (.ret (.call (name% "isUtf8") (.cons (.var (name% "test")) (.cons (.var (name% "kUtf16")) .nil))))
  .skip)

/-- `interface/string.hxx:620-623`. -/
def isTstring_8_unicode_body : Stmt :=
  (.seq (.ret (.call (name% "isUtf8") (.cons (.var (name% "test")) (.cons (.var (name% "kUtf16")) .nil))))
  .skip)

/-- `interface/string.hxx:625-628`. -/
def isTstring_S16_unicode_body : Stmt :=
  (.seq (.ret (.call (name% "isUtf16") (.cons (.var (name% "test")) .nil)))
  .skip)

/-- `interface/string.hxx:637-640`. -/
def isTstring_16_unicode_body : Stmt :=
  (.seq (.ret (.call (name% "isUtf16") (.cons (.var (name% "test")) .nil)))
  .skip)

/-- `interface/string.hxx:642-645`. -/
def isTstring_S32_unicode_body : Stmt :=
  (.seq (.ret (.call (name% "isUcs4") (.cons (.var (name% "test")) (.cons (.var (name% "kUtf16")) .nil))))
  .skip)

/-- `interface/string.hxx:647-650`. -/
def isTstring_32_unicode_body : Stmt :=
  (.seq (.ret (.call (name% "isUcs4") (.cons (.var (name% "test")) (.cons (.var (name% "kUtf16")) .nil))))
  .skip)

/-- `interface/string.hxx:823-826`. -/
def toTstring_S8_unicode_body : Stmt :=
  (.seq (.ret (.make (.str (.prim .wchar)) (.cons (.reinterpret (.ptr (.prim .wchar)) (.valueMethod (.call (name% "toUtf16") (.cons (.var (name% "test")) .nil)) (name% "c_str") .nil)) .nil)))
  .skip)

/-- `interface/string.hxx:828-831`. -/
def toTstring_8_unicode_body : Stmt :=
  (.seq (.ret (.make (.str (.prim .wchar)) (.cons (.reinterpret (.ptr (.prim .wchar)) (.valueMethod (.call (name% "toUtf16") (.cons (.var (name% "test")) .nil)) (name% "c_str") .nil)) .nil)))
  .skip)

/-- `interface/string.hxx:833-836`. -/
def toTstring_S16_unicode_body : Stmt :=
  (.seq (.ret (.make (.str (.prim .wchar)) (.cons (.reinterpret (.ptr (.prim .wchar)) (.method (name% "test") (name% "c_str") .nil)) .nil)))
  .skip)

/-- `interface/string.hxx:845-848`. -/
def toTstring_16_unicode_body : Stmt :=
  (.seq (.ret (.make (.str (.prim .wchar)) (.cons (.reinterpret (.ptr (.prim .wchar)) (.var (name% "test"))) .nil)))
  .skip)

/-- `interface/string.hxx:850-853`. -/
def toTstring_S32_unicode_body : Stmt :=
  (.seq (.ret (.make (.str (.prim .wchar)) (.cons (.reinterpret (.ptr (.prim .wchar)) (.valueMethod (.call (name% "toUtf16") (.cons (.var (name% "test")) .nil)) (name% "c_str") .nil)) .nil)))
  .skip)

/-- `interface/string.hxx:855-858`. -/
def toTstring_32_unicode_body : Stmt :=
  (.seq (.ret (.make (.str (.prim .wchar)) (.cons (.reinterpret (.ptr (.prim .wchar)) (.valueMethod (.call (name% "toUtf16") (.cons (.var (name% "test")) .nil)) (name% "c_str") .nil)) .nil)))
  .skip)

/-- `interface/string.hxx:613-654`. -/
def itemsUnicode0 : List Item :=
  [.func ⟨(nat_lit 0), (name% "isTstring"), (.prim .bool), [⟨(.str (.prim .char)), (name% "test"), none⟩], [], (some isTstring_S8_unicode_body)⟩,
   .func ⟨(nat_lit 0), (name% "isTstring"), (.prim .bool), [⟨(.ptr (.prim .char)), (name% "test"), none⟩], [], (some isTstring_8_unicode_body)⟩,
   .func ⟨(nat_lit 0), (name% "isTstring"), (.prim .bool), [⟨(.str (.prim .c16)), (name% "test"), none⟩], [], (some isTstring_S16_unicode_body)⟩,
   .func ⟨(nat_lit 0), (name% "isTstring"), (.prim .bool), [⟨(.ptr (.prim .c16)), (name% "test"), none⟩], [], (some isTstring_16_unicode_body)⟩,
   .func ⟨(nat_lit 0), (name% "isTstring"), (.prim .bool), [⟨(.str (.prim .c32)), (name% "test"), none⟩], [], (some isTstring_S32_unicode_body)⟩,
   .func ⟨(nat_lit 0), (name% "isTstring"), (.prim .bool), [⟨(.ptr (.prim .c32)), (name% "test"), none⟩], [], (some isTstring_32_unicode_body)⟩]

/-- `interface/string.hxx:821-864`. -/
def itemsUnicode1 : List Item :=
  [.func ⟨(nat_lit 0), (name% "toTstring"), (.str (.prim .wchar)), [⟨(.str (.prim .char)), (name% "test"), none⟩], [], (some toTstring_S8_unicode_body)⟩,
   .func ⟨(nat_lit 0), (name% "toTstring"), (.str (.prim .wchar)), [⟨(.ptr (.prim .char)), (name% "test"), none⟩], [], (some toTstring_8_unicode_body)⟩,
   .func ⟨(nat_lit 0), (name% "toTstring"), (.str (.prim .wchar)), [⟨(.str (.prim .c16)), (name% "test"), none⟩], [], (some toTstring_S16_unicode_body)⟩,
   .func ⟨(nat_lit 0), (name% "toTstring"), (.str (.prim .wchar)), [⟨(.ptr (.prim .c16)), (name% "test"), none⟩], [], (some toTstring_16_unicode_body)⟩,
   .func ⟨(nat_lit 0), (name% "toTstring"), (.str (.prim .wchar)), [⟨(.str (.prim .c32)), (name% "test"), none⟩], [], (some toTstring_S32_unicode_body)⟩,
   .func ⟨(nat_lit 0), (name% "toTstring"), (.str (.prim .wchar)), [⟨(.ptr (.prim .c32)), (name% "test"), none⟩], [], (some toTstring_32_unicode_body)⟩]

/-- The pieces together (`Source.unicode`). -/
def itemsUnicode : List Item :=
  itemsUnicode0.append <|
  itemsUnicode1.append []

/-- `interface/string.hxx:615-618`. -/
def isTstring_S8_unicode : Fun :=
  ⟨(nat_lit 0), (name% "isTstring"), (.prim .bool), [⟨(.str (.prim .char)), (name% "test"), none⟩], [], (some isTstring_S8_unicode_body)⟩

/-- `interface/string.hxx:620-623`. -/
def isTstring_8_unicode : Fun :=
  ⟨(nat_lit 0), (name% "isTstring"), (.prim .bool), [⟨(.ptr (.prim .char)), (name% "test"), none⟩], [], (some isTstring_8_unicode_body)⟩

/-- `interface/string.hxx:625-628`. -/
def isTstring_S16_unicode : Fun :=
  ⟨(nat_lit 0), (name% "isTstring"), (.prim .bool), [⟨(.str (.prim .c16)), (name% "test"), none⟩], [], (some isTstring_S16_unicode_body)⟩

/-- `interface/string.hxx:637-640`. -/
def isTstring_16_unicode : Fun :=
  ⟨(nat_lit 0), (name% "isTstring"), (.prim .bool), [⟨(.ptr (.prim .c16)), (name% "test"), none⟩], [], (some isTstring_16_unicode_body)⟩

/-- `interface/string.hxx:642-645`. -/
def isTstring_S32_unicode : Fun :=
  ⟨(nat_lit 0), (name% "isTstring"), (.prim .bool), [⟨(.str (.prim .c32)), (name% "test"), none⟩], [], (some isTstring_S32_unicode_body)⟩

/-- `interface/string.hxx:647-650`. -/
def isTstring_32_unicode : Fun :=
  ⟨(nat_lit 0), (name% "isTstring"), (.prim .bool), [⟨(.ptr (.prim .c32)), (name% "test"), none⟩], [], (some isTstring_32_unicode_body)⟩

/-- `interface/string.hxx:823-826`. -/
def toTstring_S8_unicode : Fun :=
  ⟨(nat_lit 0), (name% "toTstring"), (.str (.prim .wchar)), [⟨(.str (.prim .char)), (name% "test"), none⟩], [], (some toTstring_S8_unicode_body)⟩

/-- `interface/string.hxx:828-831`. -/
def toTstring_8_unicode : Fun :=
  ⟨(nat_lit 0), (name% "toTstring"), (.str (.prim .wchar)), [⟨(.ptr (.prim .char)), (name% "test"), none⟩], [], (some toTstring_8_unicode_body)⟩

/-- `interface/string.hxx:833-836`. -/
def toTstring_S16_unicode : Fun :=
  ⟨(nat_lit 0), (name% "toTstring"), (.str (.prim .wchar)), [⟨(.str (.prim .c16)), (name% "test"), none⟩], [], (some toTstring_S16_unicode_body)⟩

/-- `interface/string.hxx:845-848`. -/
def toTstring_16_unicode : Fun :=
  ⟨(nat_lit 0), (name% "toTstring"), (.str (.prim .wchar)), [⟨(.ptr (.prim .c16)), (name% "test"), none⟩], [], (some toTstring_16_unicode_body)⟩

/-- `interface/string.hxx:850-853`. -/
def toTstring_S32_unicode : Fun :=
  ⟨(nat_lit 0), (name% "toTstring"), (.str (.prim .wchar)), [⟨(.str (.prim .c32)), (name% "test"), none⟩], [], (some toTstring_S32_unicode_body)⟩

/-- `interface/string.hxx:855-858`. -/
def toTstring_32_unicode : Fun :=
  ⟨(nat_lit 0), (name% "toTstring"), (.str (.prim .wchar)), [⟨(.ptr (.prim .c32)), (name% "test"), none⟩], [], (some toTstring_32_unicode_body)⟩

/-- The functions for `_UNICODE`. -/
def funsUnicode : List Fun :=
  [isTstring_S8_unicode,
   isTstring_8_unicode,
   isTstring_S16_unicode,
   isTstring_16_unicode,
   isTstring_S32_unicode,
   isTstring_32_unicode,
   toTstring_S8_unicode,
   toTstring_8_unicode,
   toTstring_S16_unicode,
   toTstring_16_unicode,
   toTstring_S32_unicode,
   toTstring_32_unicode]

/-- The functions that the library has on Windows. -/
def windowsFuns : Source.Tchar → List Fun
  | .none => funsWindows
  | .mbcs => funsWindows ++ funsMbcs
  | .unicode => funsWindows ++ funsUnicode

/-- The library on Windows. -/
def onWindows (t : Source.Tchar) (version : List Int) : Program :=
  ⟨(funs ++ funs16) ++ windowsFuns t, globals version, classes, .c16⟩

end Ansak.Cpp.Ast
