import Verif.Model.Tool.Parse

/-!
# The syntax tree of the tool

What the parser makes of the source text (proved to be right in `Verif.Lemmas.Tool.Text`).
-/

namespace Ansak.Tool.Ast

/-- `mkUnicodeTestData/mkUnicodeTestData.cxx:79`: the condition of the loop of `process`. -/
def loopCondition : Expr :=
  (.bin .gt (.method (.var (name% "oneLine")) (name% "size") .nil) (.num 10))

/-- Lines 80-98: the body of the loop. -/
def loopBody : Stmt :=
  (.block
  (.seq (.decl (name% "auto") (name% "surrogateN") (.method (.index (.var (name% "fields")) (.num 1)) (name% "find") (.cons (.lit [83, 117, 114, 114, 111, 103, 97, 116, 101]) .nil)))
  (.seq (.decl (name% "auto") (name% "privateN") (.method (.index (.var (name% "fields")) (.num 1)) (name% "find") (.cons (.lit [80, 114, 105, 118, 97, 116, 101]) .nil)))
  (.seq (.ite (.bin .or (.bin .ne (.var (name% "surrogateN")) (.var (name% "npos"))) (.bin .ne (.var (name% "privateN")) (.var (name% "npos")))) (.block
      (.seq (.expr (.call (name% "getline") (.cons (.var (name% "inStream")) (.cons (.var (name% "oneLine")) .nil))))
      (.seq (.expr (.set (name% "fields") (.call (name% "split") (.cons (.var (name% "oneLine")) (.cons (.chr 59) .nil)))))
      (.seq .cont
      .skip))))
    .skip)
  (.seq (.expr (.bin .shl (.bin .shl (.bin .shl (.var (name% "outStream")) (.lit [32, 48, 120])) (.index (.var (name% "fields")) (.num 0))) (.chr 44)))
  (.seq (.expr (.call (name% "getline") (.cons (.var (name% "inStream")) (.cons (.var (name% "oneLine")) .nil))))
  (.seq (.expr (.set (name% "fields") (.call (name% "split") (.cons (.var (name% "oneLine")) (.cons (.chr 59) .nil)))))
  (.seq (.expr (.incr (name% "nCount")))
  (.seq (.ite (.bin .and (.bin .ne (.method (.var (name% "oneLine")) (name% "size") .nil) (.num 0)) (.bin .eq (.bin .mod (.var (name% "nCount")) (.num 10)) (.num 0))) (.block
      (.seq (.expr (.bin .shl (.bin .shl (.var (name% "outStream")) (.var (name% "endl"))) (.lit [32, 32, 32])))
      .skip))
    .skip)
  .skip)))))))))

/-- `mkUnicodeTestData/mkUnicodeTestData.cxx:67-104`. -/
def process : Fun :=
  ⟨(name% "void"), (name% "process"), [⟨(name% "filebuf"), .ref, (name% "inbuf")⟩, ⟨(name% "filebuf"), .ref, (name% "outbuf")⟩],
  (.seq (.make (name% "istream") (name% "inStream") (.cons (.addr (name% "inbuf")) .nil))
  (.seq (.make (name% "ostream") (name% "outStream") (.cons (.addr (name% "outbuf")) .nil))
  (.seq (.make (name% "string") (name% "oneLine") .nil)
  (.seq (.expr (.call (name% "getline") (.cons (.var (name% "inStream")) (.cons (.var (name% "oneLine")) .nil))))
  (.seq (.decl (name% "auto") (name% "fields") (.call (name% "split") (.cons (.var (name% "oneLine")) (.cons (.chr 59) .nil))))
  (.seq (.ite (.not (.method (.var (name% "fields")) (name% "empty") .nil)) (.block
      (.seq (.expr (.bin .shl (.bin .shl (.bin .shl (.var (name% "outStream")) (.lit [99, 104, 97, 114, 51, 50, 95, 116, 32, 118, 97, 108, 105, 100, 85, 110, 105, 99, 111, 100, 101, 67, 111, 100, 101, 80, 111, 105, 110, 116, 115, 91, 93, 32, 61, 32, 123])) (.var (name% "endl"))) (.lit [32, 32, 32, 32])))
      (.seq (.decl (name% "int") (name% "nCount") (.num 0))
      (.seq (.loop Ast.loopCondition Ast.loopBody)
      (.seq (.expr (.bin .shl (.bin .shl (.var (name% "outStream")) (.lit [32, 48, 120, 70, 70, 70, 70, 70, 70, 70, 70, 32, 125, 59])) (.var (name% "endl"))))
      .skip)))))
    .skip)
  (.seq (.expr (.method (.var (name% "outbuf")) (name% "close") .nil))
  .skip)))))))⟩

/-- Lines 133-143: what `main` does in `try`. -/
def attempt : Stmt :=
  (.block
  (.seq (.make (name% "filebuf") (name% "inBuf") .nil)
  (.seq (.expr (.method (.var (name% "inBuf")) (name% "open") (.cons (.index (.var (name% "argv")) (.num 1)) (.cons (.var (name% "in")) .nil))))
  (.seq (.expr (.set (name% "opened1") (.bool true)))
  (.seq (.make (name% "filebuf") (name% "outBuf") .nil)
  (.seq (.expr (.method (.var (name% "outBuf")) (name% "open") (.cons (.index (.var (name% "argv")) (.num 2)) (.cons (.bin .bitOr (.var (name% "out")) (.var (name% "trunc"))) .nil))))
  (.seq (.expr (.set (name% "opened2") (.bool true)))
  (.seq (.expr (.call (name% "process") (.cons (.var (name% "inBuf")) (.cons (.var (name% "outBuf")) .nil))))
  (.seq (.expr (.method (.var (name% "inBuf")) (name% "close") .nil))
  (.seq (.expr (.method (.var (name% "outBuf")) (name% "close") .nil))
  .skip))))))))))

/-- Lines 147-162: what `main` does in `catch`. -/
def handler : Stmt :=
  (.block
  (.seq (.expr (.bin .shl (.bin .shl (.bin .shl (.bin .shl (.var (name% "cerr")) (.lit [85, 115, 97, 103, 101, 58, 32])) (.index (.var (name% "argv")) (.num 0))) (.lit [32, 60, 105, 110, 102, 105, 108, 101, 62, 32, 60, 111, 117, 116, 102, 105, 108, 101, 62])) (.var (name% "endl"))))
  (.seq (.ite (.var (name% "opened2")) (.block
      (.seq (.expr (.bin .shl (.bin .shl (.var (name% "cerr")) (.lit [32, 32, 32, 32, 97, 110, 32, 101, 114, 114, 111, 114, 32, 111, 99, 99, 117, 114, 114, 101, 100, 32, 105, 110, 32, 112, 114, 111, 99, 101, 115, 115, 105, 110, 103, 32, 116, 104, 101, 32, 85, 110, 105, 99, 111, 100, 101, 32, 100, 97, 116, 97, 46])) (.var (name% "endl"))))
      (.seq (.ret (.num 4))
      .skip)))
    (.ite (.var (name% "opened1")) (.block
        (.seq (.expr (.bin .shl (.bin .shl (.var (name% "cerr")) (.lit [32, 32, 32, 32, 111, 117, 116, 102, 105, 108, 101, 32, 99, 111, 117, 108, 100, 32, 110, 111, 116, 32, 98, 101, 32, 99, 114, 101, 97, 116, 101, 100, 46])) (.var (name% "endl"))))
        (.seq (.ret (.num 3))
        .skip)))
      (.block
        (.seq (.expr (.bin .shl (.bin .shl (.var (name% "cerr")) (.lit [32, 32, 32, 32, 105, 110, 102, 105, 108, 101, 32, 99, 111, 117, 108, 100, 32, 110, 111, 116, 32, 98, 101, 32, 111, 112, 101, 110, 101, 100, 46])) (.var (name% "endl"))))
        (.seq (.ret (.num 2))
        .skip)))))
  .skip)))

/-- `mkUnicodeTestData/mkUnicodeTestData.cxx:109-166`. -/
def main : Fun :=
  ⟨(name% "int"), (name% "main"), [⟨(name% "int"), .value, (name% "argc")⟩, ⟨(name% "char"), .pointers, (name% "argv")⟩],
  (.seq (.ite (.bin .ne (.var (name% "argc")) (.num 3)) (.block
      (.seq (.expr (.bin .shl (.bin .shl (.bin .shl (.bin .shl (.var (name% "cerr")) (.lit [85, 115, 97, 103, 101, 58, 32])) (.index (.var (name% "argv")) (.num 0))) (.lit [32, 60, 105, 110, 102, 105, 108, 101, 62, 32, 60, 111, 117, 116, 102, 105, 108, 101, 62])) (.var (name% "endl"))))
      (.seq (.expr (.bin .shl (.bin .shl (.var (name% "cerr")) (.lit [32, 32, 32, 32, 116, 111, 32, 99, 111, 110, 118, 101, 114, 116, 32, 59, 45, 100, 101, 108, 105, 109, 105, 116, 101, 100, 32, 85, 110, 105, 99, 111, 100, 101, 32, 100, 97, 116, 97, 32, 105, 110, 116, 111, 32, 97, 110, 32, 97, 114, 114, 97, 121, 32, 111, 102, 32, 116, 101, 115, 116, 32, 100, 97, 116, 97, 46])) (.var (name% "endl"))))
      (.seq (.ret (.num 1))
      .skip))))
    .skip)
  (.seq (.make (name% "stat") (name% "statData") .nil)
  (.seq (.decl (name% "auto") (name% "rc") (.call (name% "stat") (.cons (.index (.var (name% "argv")) (.num 1)) (.cons (.addr (name% "statData")) .nil))))
  (.seq (.ite (.bin .ne (.var (name% "rc")) (.num 0)) (.block
      (.seq (.expr (.bin .shl (.bin .shl (.bin .shl (.bin .shl (.var (name% "cerr")) (.lit [85, 115, 97, 103, 101, 58, 32])) (.index (.var (name% "argv")) (.num 0))) (.lit [32, 60, 105, 110, 102, 105, 108, 101, 62, 32, 60, 111, 117, 116, 102, 105, 108, 101, 62])) (.var (name% "endl"))))
      (.seq (.expr (.bin .shl (.bin .shl (.var (name% "cerr")) (.lit [32, 32, 32, 32, 105, 110, 102, 105, 108, 101, 32, 100, 111, 101, 115, 32, 110, 111, 116, 32, 101, 120, 105, 115, 116, 46])) (.var (name% "endl"))))
      (.seq (.ret (.num 2))
      .skip))))
    .skip)
  (.seq (.decl (name% "bool") (name% "opened1") (.bool false))
  (.seq (.decl (name% "bool") (name% "opened2") (.bool false))
  (.seq (.tryCatch Ast.attempt Ast.handler)
  (.seq (.ret (.num 0))
  .skip))))))))⟩

end Ansak.Tool.Ast
