import Verif.Model.Cpp.Sem

/-!
# The syntax trees of the library

What the parser makes of the source text (written by `tools/gen_ast.txt`, and proved to be right in
`Verif.Lemmas.Cpp.Text`).
-/

namespace Ansak.Cpp.Ast

/-- `interface/string.hxx:123`. -/
def construct_body : Stmt :=
  .skip

/-- `interface/string.hxx:126-129`. -/
def checkIf_E_body : Stmt :=
  (.seq (.ret (.make (.cls (name% "EncodingCheckPredicate")) (.cons (.var (name% "toCheckFor")) .nil)))
  .skip)

/-- `interface/string.hxx:131-134`. -/
def checkIfNot_E_body : Stmt :=
  (.seq (.ret (.make (.cls (name% "EncodingCheckPredicate")) (.cons (.var (name% "toCheckFor")) (.cons (.bool false) .nil))))
  .skip)

/-- `interface/string.hxx:152`. -/
def differs_Pred_body : Stmt :=
  (.seq (.ret (.not (.call (name% "operator==") (.cons (.var (name% "other")) .nil))))
  .skip)

/-- `interface/string.hxx:192-195`. -/
def validIf_E_body : Stmt :=
  (.seq (.ret (.call (name% "checkIf") (.cons (.var (name% "toCheckFor")) .nil)))
  .skip)

/-- `interface/string.hxx:197-200`. -/
def validIfNot_E_body : Stmt :=
  (.seq (.ret (.call (name% "checkIfNot") (.cons (.var (name% "toCheckFor")) .nil)))
  .skip)

/-- `interface/string.hxx:253-257`. -/
def isUtf8_S8_Pred_body : Stmt :=
  (.seq (.ret (.call (name% "isUtf8") (.cons (.var (name% "test")) (.cons (.var (name% "kUtf8")) (.cons (.var (name% "pred")) .nil)))))
  .skip)

/-- `interface/string.hxx:267-271`. -/
def isUtf8_8_Pred_body : Stmt :=
  (.seq (.ret (.call (name% "isUtf8") (.cons (.var (name% "test")) (.cons (.var (name% "kUtf8")) (.cons (.var (name% "pred")) .nil)))))
  .skip)

/-- `interface/string.hxx:292-293`. -/
def isUtf16_S16_Pred_body : Stmt :=
  (.seq (.ret (.call (name% "isUtf16") (.cons (.var (name% "test")) (.cons (.var (name% "kUtf16")) (.cons (.var (name% "pred")) .nil)))))
  .skip)

/-- `interface/string.hxx:294-295`. -/
def isUtf16_16_Pred_body : Stmt :=
  (.seq (.ret (.call (name% "isUtf16") (.cons (.var (name% "test")) (.cons (.var (name% "kUtf16")) (.cons (.var (name% "pred")) .nil)))))
  .skip)

/-- `interface/string.hxx:307-308`. -/
def isUcs2_S16_Pred_body : Stmt :=
  (.seq (.ret (.call (name% "isUcs2") (.cons (.var (name% "test")) (.cons (.var (name% "kUcs2")) (.cons (.var (name% "pred")) .nil)))))
  .skip)

/-- `interface/string.hxx:309-310`. -/
def isUcs2_16_Pred_body : Stmt :=
  (.seq (.ret (.call (name% "isUcs2") (.cons (.var (name% "test")) (.cons (.var (name% "kUcs2")) (.cons (.var (name% "pred")) .nil)))))
  .skip)

/-- `interface/string.hxx:322-323`. -/
def isUcs4_S32_Pred_body : Stmt :=
  (.seq (.ret (.call (name% "isUcs4") (.cons (.var (name% "test")) (.cons (.var (name% "kUcs4")) (.cons (.var (name% "pred")) .nil)))))
  .skip)

/-- `interface/string.hxx:324-325`. -/
def isUcs4_32_Pred_body : Stmt :=
  (.seq (.ret (.call (name% "isUcs4") (.cons (.var (name% "test")) (.cons (.var (name% "kUcs4")) (.cons (.var (name% "pred")) .nil)))))
  .skip)

/-- `source/string_internal.hxx:118`. -/
def isUnicodeAssigned_8_body : Stmt :=
  (.seq (.ret (.bool true))
  .skip)

/-- `source/string_internal.hxx:122`. -/
def isUnicodePrivate_8_body : Stmt :=
  (.seq (.ret (.bool false))
  .skip)

/-- `source/string_internal.hxx:137-147`. -/
def getUnicodeEncodableRangeFlag_body : Stmt :=
  (.seq .skip
  (.seq (.ite (.bin .or (.bin .eq (.sizeof .param) (.num 1)) (.bin .and (.bin .and (.bin .ne (.var (name% "c")) (.num 0)) (.bin .or (.bin .lt (.var (name% "c")) (.num 55296)) (.bin .gt (.var (name% "c")) (.num 57343)))) (.bin .lt (.var (name% "c")) (.num 1114112))))
    (.block
     (.seq (.ret (.var (name% "kUnicodeFlag")))
     .skip))
    .skip)
  (.seq (.ret (.var (name% "kNoFlag")))
  .skip)))

/-- `source/string_internal.hxx:153-182`. -/
def getCharEncodableRangeFlags_body : Stmt :=
  (.seq .skip
  (.seq (.ite (.bin .eq (.sizeof .param) (.num 1))
    (.block
     (.seq (.ret (.cond (.bin .eq (.bin .bitAnd (.var (name% "c")) (.num 128)) (.num 0)) (.var (name% "k7BitFlags")) (.var (name% "k16BitFlags"))))
     .skip))
    (.ite (.bin .le (.var (name% "c")) (.num 127))
     (.block
      (.seq (.ret (.var (name% "k7BitFlags")))
      .skip))
     (.ite (.bin .and (.bin .ge (.var (name% "c")) (.num 55296)) (.bin .le (.var (name% "c")) (.num 57343)))
      (.block
       (.seq (.ret (.var (name% "kInvalidRangeFlag")))
       .skip))
      (.ite (.bin .lt (.var (name% "c")) (.num 65536))
       (.block
        (.seq (.ret (.var (name% "k16BitFlags")))
        .skip))
       (.ite (.bin .lt (.var (name% "c")) (.num 2097152))
        (.block
         (.seq (.ret (.cast (.prim (.enum (name% "RangeTypeFlags"))) (.bin .bitOr (.var (name% "k21BitFlags")) (.call (name% "getUnicodeEncodableRangeFlag") (.cons (.var (name% "c")) .nil)))))
         .skip))
        (.block
         (.seq (.ret (.cond (.bin .eq (.bin .bitAnd (.var (name% "c")) (.num 2147483648)) (.num 0)) (.var (name% "k31BitFlags")) (.var (name% "k32BitFlags"))))
         .skip)))))))
  .skip))

/-- `source/string_internal.hxx:188-217`. -/
def getRangeFlag_8_body : Stmt :=
  (.seq (.decl .auto (name% "f") (.cast (.prim .uchar) (.var (name% "firstChar"))))
  (.seq (.ite (.bin .le (.var (name% "f")) (.num 127))
    (.block
     (.seq (.ret (.var (name% "k7BitFlags")))
     .skip))
    (.ite (.bin .le (.var (name% "f")) (.num 191))
     (.block
      (.seq (.ret (.var (name% "kInvalidRangeFlag")))
      .skip))
     (.ite (.bin .le (.var (name% "f")) (.num 239))
      (.block
       (.seq (.ret (.var (name% "k16BitFlags")))
       .skip))
      (.ite (.bin .and (.bin .ge (.var (name% "f")) (.num 240)) (.bin .le (.var (name% "f")) (.num 244)))
       (.block
        (.seq (.ret (.var (name% "k21BitUnicodeFlags")))
        .skip))
       (.ite (.bin .and (.bin .ge (.var (name% "f")) (.num 245)) (.bin .le (.var (name% "f")) (.num 253)))
        (.block
         (.seq (.ret (.var (name% "k31BitFlags")))
         .skip))
        .skip)))))
  (.seq (.ret (.var (name% "kInvalidRangeFlag")))
  .skip)))

/-- `source/string_internal.hxx:223-239`. -/
def getRangeFlag_16_body : Stmt :=
  (.seq (.ite (.bin .and (.bin .ge (.var (name% "firstChar")) (.num 55296)) (.bin .le (.var (name% "firstChar")) (.num 56319)))
    (.block
     (.seq (.ret (.var (name% "k21BitUnicodeFlags")))
     .skip))
    (.ite (.bin .and (.bin .ge (.var (name% "firstChar")) (.num 56320)) (.bin .le (.var (name% "firstChar")) (.num 57343)))
     (.block
      (.seq (.ret (.var (name% "kInvalidRangeFlag")))
      .skip))
     (.ite (.bin .le (.var (name% "firstChar")) (.num 127))
      (.block
       (.seq (.ret (.var (name% "k7BitFlags")))
       .skip))
      .skip)))
  (.seq (.ret (.var (name% "k16BitFlags")))
  .skip))

/-- `source/string_internal.hxx:245-254`. -/
def charToEncodingTypeMask_body : Stmt :=
  (.seq .skip
  (.seq (.ret (.bin .bitOr (.bin .bitOr (.bin .bitOr (.cond (.call (name% "isUnicodeAssigned") (.cons (.var (name% "c")) .nil)) (.var (name% "kIsAssignedFlag")) (.num 0)) (.cond (.call (name% "isUnicodePrivate") (.cons (.var (name% "c")) .nil)) (.var (name% "kIsPrivateFlag")) (.num 0))) (.cond (.call (name% "isControlChar") (.cons (.var (name% "c")) .nil)) (.var (name% "kIsControlFlag")) (.num 0))) (.cond (.call (name% "isWhitespaceChar") (.cons (.var (name% "c")) .nil)) (.var (name% "kIsWhiteSpaceFlag")) (.num 0))))
  .skip))

/-- `source/string_internal.hxx:262-271`. -/
def isFirstHalfUtf16_body : Stmt :=
  (.seq .skip
  (.seq (.ret (.bin .and (.bin .ge (.var (name% "c")) (.num 55296)) (.bin .le (.var (name% "c")) (.num 56319))))
  .skip))

/-- `source/string_internal.hxx:279-288`. -/
def isSecondHalfUtf16_body : Stmt :=
  (.seq .skip
  (.seq (.ret (.bin .and (.bin .ge (.var (name% "c")) (.num 56320)) (.bin .le (.var (name% "c")) (.num 57343))))
  .skip))

/-- `source/string_internal.hxx:293-297`. -/
def rawDecodeUtf8_8_8_body : Stmt :=
  (.seq (.seq (.decl (.prim .uchar) (name% "uc0") (.var (name% "c0")))
   (.decl (.prim .uchar) (name% "uc1") (.var (name% "c1"))))
  (.seq (.ret (.bin .add (.bin .shl (.bin .bitAnd (.var (name% "uc0")) (.num 31)) (.num 6)) (.bin .bitAnd (.var (name% "uc1")) (.num 63))))
  .skip))

/-- `source/string_internal.hxx:303-307`. -/
def rawDecodeUtf8_8_8_8_body : Stmt :=
  (.seq (.seq (.decl (.prim .uchar) (name% "uc0") (.var (name% "c0")))
   (.seq (.decl (.prim .uchar) (name% "uc1") (.var (name% "c1")))
   (.decl (.prim .uchar) (name% "uc2") (.var (name% "c2")))))
  (.seq (.ret (.bin .add (.bin .add (.bin .shl (.bin .bitAnd (.var (name% "uc0")) (.num 15)) (.num 12)) (.bin .shl (.bin .bitAnd (.var (name% "uc1")) (.num 63)) (.num 6))) (.bin .bitAnd (.var (name% "uc2")) (.num 63))))
  .skip))

/-- `source/string_internal.hxx:313-318`. -/
def rawDecodeUtf8_8_8_8_8_body : Stmt :=
  (.seq (.seq (.decl (.prim .uchar) (name% "uc0") (.var (name% "c0")))
   (.seq (.decl (.prim .uchar) (name% "uc1") (.var (name% "c1")))
   (.seq (.decl (.prim .uchar) (name% "uc2") (.var (name% "c2")))
   (.decl (.prim .uchar) (name% "uc3") (.var (name% "c3"))))))
  (.seq (.ret (.bin .add (.bin .add (.bin .add (.bin .shl (.bin .bitAnd (.var (name% "uc0")) (.num 7)) (.num 18)) (.bin .shl (.bin .bitAnd (.var (name% "uc1")) (.num 63)) (.num 12))) (.bin .shl (.bin .bitAnd (.var (name% "uc2")) (.num 63)) (.num 6))) (.bin .bitAnd (.var (name% "uc3")) (.num 63))))
  .skip))

/-- `source/string_internal.hxx:324-330`. -/
def rawDecodeUtf8_8_8_8_8_8_body : Stmt :=
  (.seq (.seq (.decl (.prim .uchar) (name% "uc0") (.var (name% "c0")))
   (.seq (.decl (.prim .uchar) (name% "uc1") (.var (name% "c1")))
   (.seq (.decl (.prim .uchar) (name% "uc2") (.var (name% "c2")))
   (.seq (.decl (.prim .uchar) (name% "uc3") (.var (name% "c3")))
   (.decl (.prim .uchar) (name% "uc4") (.var (name% "c4")))))))
  (.seq (.seq (.decl (.prim .c32) (name% "wc0") (.var (name% "uc0")))
   (.seq (.decl (.prim .c32) (name% "wc1") (.var (name% "uc1")))
   (.seq (.decl (.prim .c32) (name% "wc2") (.var (name% "uc2")))
   (.seq (.decl (.prim .c32) (name% "wc3") (.var (name% "uc3")))
   (.decl (.prim .c32) (name% "wc4") (.var (name% "uc4")))))))
  (.seq (.ret (.bin .add (.bin .add (.bin .add (.bin .add (.bin .shl (.bin .bitAnd (.var (name% "wc0")) (.num 3)) (.num 24)) (.bin .shl (.bin .bitAnd (.var (name% "wc1")) (.num 63)) (.num 18))) (.bin .shl (.bin .bitAnd (.var (name% "wc2")) (.num 63)) (.num 12))) (.bin .shl (.bin .bitAnd (.var (name% "wc3")) (.num 63)) (.num 6))) (.bin .bitAnd (.var (name% "wc4")) (.num 63))))
  .skip)))

/-- `source/string_internal.hxx:336-342`. -/
def rawDecodeUtf8_8_8_8_8_8_8_body : Stmt :=
  (.seq (.seq (.decl (.prim .uchar) (name% "uc0") (.var (name% "c0")))
   (.seq (.decl (.prim .uchar) (name% "uc1") (.var (name% "c1")))
   (.seq (.decl (.prim .uchar) (name% "uc2") (.var (name% "c2")))
   (.seq (.decl (.prim .uchar) (name% "uc3") (.var (name% "c3")))
   (.seq (.decl (.prim .uchar) (name% "uc4") (.var (name% "c4")))
   (.decl (.prim .uchar) (name% "uc5") (.var (name% "c5"))))))))
  (.seq (.seq (.decl (.prim .c32) (name% "wc0") (.var (name% "uc0")))
   (.seq (.decl (.prim .c32) (name% "wc1") (.var (name% "uc1")))
   (.seq (.decl (.prim .c32) (name% "wc2") (.var (name% "uc2")))
   (.seq (.decl (.prim .c32) (name% "wc3") (.var (name% "uc3")))
   (.seq (.decl (.prim .c32) (name% "wc4") (.var (name% "uc4")))
   (.decl (.prim .c32) (name% "wc5") (.var (name% "uc5"))))))))
  (.seq (.ret (.bin .add (.bin .add (.bin .add (.bin .add (.bin .add (.bin .shl (.bin .bitAnd (.var (name% "wc0")) (.num 1)) (.num 30)) (.bin .shl (.bin .bitAnd (.var (name% "wc1")) (.num 63)) (.num 24))) (.bin .shl (.bin .bitAnd (.var (name% "wc2")) (.num 63)) (.num 18))) (.bin .shl (.bin .bitAnd (.var (name% "wc3")) (.num 63)) (.num 12))) (.bin .shl (.bin .bitAnd (.var (name% "wc4")) (.num 63)) (.num 6))) (.bin .bitAnd (.var (name% "wc5")) (.num 63))))
  .skip)))

/-- `source/string_internal.hxx:354-402`. -/
def encodeUtf8_body : Stmt :=
  (.seq .skip
  (.seq (.ite (.bin .eq (.bin .bitAnd (.var (name% "c")) (.num 4294967168)) (.num 0))
    (.block
     (.seq (.expr (.call (name% "adder") (.cons (.cast (.prim .char) (.var (name% "c"))) .nil)))
     .skip))
    (.ite (.bin .le (.var (name% "c")) (.num 2047))
     (.block
      (.seq (.expr (.call (name% "adder") (.cons (.cast (.prim .char) (.bin .bitOr (.bin .bitAnd (.bin .shr (.var (name% "c")) (.num 6)) (.num 31)) (.num 192))) .nil)))
      (.seq (.expr (.call (name% "adder") (.cons (.cast (.prim .char) (.bin .bitOr (.bin .bitAnd (.var (name% "c")) (.num 63)) (.num 128))) .nil)))
      .skip)))
     (.ite (.bin .le (.var (name% "c")) (.num 65535))
      (.block
       (.seq (.expr (.call (name% "adder") (.cons (.cast (.prim .char) (.bin .bitOr (.bin .bitAnd (.bin .shr (.var (name% "c")) (.num 12)) (.num 15)) (.num 224))) .nil)))
       (.seq (.expr (.call (name% "adder") (.cons (.cast (.prim .char) (.bin .bitOr (.bin .bitAnd (.bin .shr (.var (name% "c")) (.num 6)) (.num 63)) (.num 128))) .nil)))
       (.seq (.expr (.call (name% "adder") (.cons (.cast (.prim .char) (.bin .bitOr (.bin .bitAnd (.var (name% "c")) (.num 63)) (.num 128))) .nil)))
       .skip))))
      (.ite (.bin .le (.var (name% "c")) (.num 2097151))
       (.block
        (.seq (.expr (.call (name% "adder") (.cons (.cast (.prim .char) (.bin .bitOr (.bin .bitAnd (.bin .shr (.var (name% "c")) (.num 18)) (.num 7)) (.num 240))) .nil)))
        (.seq (.expr (.call (name% "adder") (.cons (.cast (.prim .char) (.bin .bitOr (.bin .bitAnd (.bin .shr (.var (name% "c")) (.num 12)) (.num 63)) (.num 128))) .nil)))
        (.seq (.expr (.call (name% "adder") (.cons (.cast (.prim .char) (.bin .bitOr (.bin .bitAnd (.bin .shr (.var (name% "c")) (.num 6)) (.num 63)) (.num 128))) .nil)))
        (.seq (.expr (.call (name% "adder") (.cons (.cast (.prim .char) (.bin .bitOr (.bin .bitAnd (.var (name% "c")) (.num 63)) (.num 128))) .nil)))
        .skip)))))
       (.ite (.bin .le (.var (name% "c")) (.num 67108863))
        (.block
         (.seq (.expr (.call (name% "adder") (.cons (.cast (.prim .char) (.bin .bitOr (.bin .bitAnd (.bin .shr (.var (name% "c")) (.num 24)) (.num 3)) (.num 248))) .nil)))
         (.seq (.expr (.call (name% "adder") (.cons (.cast (.prim .char) (.bin .bitOr (.bin .bitAnd (.bin .shr (.var (name% "c")) (.num 18)) (.num 63)) (.num 128))) .nil)))
         (.seq (.expr (.call (name% "adder") (.cons (.cast (.prim .char) (.bin .bitOr (.bin .bitAnd (.bin .shr (.var (name% "c")) (.num 12)) (.num 63)) (.num 128))) .nil)))
         (.seq (.expr (.call (name% "adder") (.cons (.cast (.prim .char) (.bin .bitOr (.bin .bitAnd (.bin .shr (.var (name% "c")) (.num 6)) (.num 63)) (.num 128))) .nil)))
         (.seq (.expr (.call (name% "adder") (.cons (.cast (.prim .char) (.bin .bitOr (.bin .bitAnd (.var (name% "c")) (.num 63)) (.num 128))) .nil)))
         .skip))))))
        (.ite (.bin .le (.var (name% "c")) (.num 2147483647))
         (.block
          (.seq (.expr (.call (name% "adder") (.cons (.cast (.prim .char) (.bin .bitOr (.bin .bitAnd (.bin .shr (.var (name% "c")) (.num 30)) (.num 1)) (.num 252))) .nil)))
          (.seq (.expr (.call (name% "adder") (.cons (.cast (.prim .char) (.bin .bitOr (.bin .bitAnd (.bin .shr (.var (name% "c")) (.num 24)) (.num 63)) (.num 128))) .nil)))
          (.seq (.expr (.call (name% "adder") (.cons (.cast (.prim .char) (.bin .bitOr (.bin .bitAnd (.bin .shr (.var (name% "c")) (.num 18)) (.num 63)) (.num 128))) .nil)))
          (.seq (.expr (.call (name% "adder") (.cons (.cast (.prim .char) (.bin .bitOr (.bin .bitAnd (.bin .shr (.var (name% "c")) (.num 12)) (.num 63)) (.num 128))) .nil)))
          (.seq (.expr (.call (name% "adder") (.cons (.cast (.prim .char) (.bin .bitOr (.bin .bitAnd (.bin .shr (.var (name% "c")) (.num 6)) (.num 63)) (.num 128))) .nil)))
          (.seq (.expr (.call (name% "adder") (.cons (.cast (.prim .char) (.bin .bitOr (.bin .bitAnd (.var (name% "c")) (.num 63)) (.num 128))) .nil)))
          .skip)))))))
         .skip))))))
  .skip))

/-- `source/string_internal.hxx:412-420`. -/
def rawDecodeUtf16_16_16_body : Stmt :=
  (.seq (.seq (.decl (.prim .c32) (name% "wc0") (.var (name% "c0")))
   (.decl (.prim .c32) (name% "wc1") (.var (name% "c1"))))
  (.seq (.ret (.bin .add (.bin .add (.num 65536) (.bin .shl (.bin .bitAnd (.var (name% "wc0")) (.num 1023)) (.num 10))) (.bin .bitAnd (.var (name% "wc1")) (.num 1023))))
  .skip))

/-- `source/string_internal.hxx:426-445`. -/
def rawEncodeUtf16_body : Stmt :=
  (.seq .skip
  (.seq (.ite (.bin .lt (.var (name% "c")) (.num 65536))
    (.block
     (.seq (.expr (.call (name% "adder") (.cons (.cast (.prim .c16) (.var (name% "c"))) .nil)))
     .skip))
    (.block
     (.seq (.expr (.setOp .sub (name% "c") (.num 65536)))
     (.seq (.expr (.call (name% "adder") (.cons (.cast (.prim .c16) (.bin .add (.num 55296) (.bin .bitAnd (.bin .shr (.var (name% "c")) (.num 10)) (.num 1023)))) .nil)))
     (.seq (.expr (.call (name% "adder") (.cons (.cast (.prim .c16) (.bin .add (.num 56320) (.bin .bitAnd (.var (name% "c")) (.num 1023)))) .nil)))
     .skip)))))
  .skip))

/-- `source/string_decode_utf8.cxx:78-201`. -/
def decodeUtf8_body : Stmt :=
  (.seq (.decl .auto (name% "uc") (.cast (.prim .uchar) (.deref (.var (name% "p")))))
  (.seq (.ite (.bin .le (.var (name% "uc")) (.num 127))
    (.block
     (.seq (.ret (.var (name% "uc")))
     .skip))
    (.ite (.bin .le (.var (name% "uc")) (.num 191))
     (.block
      (.seq (.expr (.set (name% "p") .null))
      (.seq (.ret (.num 0))
      .skip)))
     (.ite (.bin .le (.var (name% "uc")) (.num 223))
      (.block
       (.seq (.decl .auto (name% "uc1") (.cast (.prim .uchar) (.deref (.incr (name% "p")))))
       (.seq (.ite (.bin .eq (.var (name% "uc1")) (.num 0))
         (.block
          (.seq (.ret (.num 0))
          .skip))
         .skip)
       (.seq (.ite (.bin .or (.bin .lt (.var (name% "uc1")) (.num 128)) (.bin .gt (.var (name% "uc1")) (.num 191)))
         (.block
          (.seq (.expr (.set (name% "p") .null))
          (.seq (.ret (.num 0))
          .skip)))
         .skip)
       (.seq (.decl .auto (name% "r") (.call (name% "rawDecodeUtf8") (.cons (.var (name% "uc")) (.cons (.var (name% "uc1")) .nil))))
       (.seq (.ite (.bin .lt (.var (name% "r")) (.num 128))
         (.block
          (.seq (.expr (.set (name% "p") .null))
          (.seq (.ret (.num 0))
          .skip)))
         .skip)
       (.seq (.ret (.var (name% "r")))
       .skip)))))))
      (.ite (.bin .le (.var (name% "uc")) (.num 239))
       (.block
        (.seq (.decl .auto (name% "uc1") (.cast (.prim .uchar) (.deref (.incr (name% "p")))))
        (.seq (.ite (.bin .eq (.var (name% "uc1")) (.num 0))
          (.block
           (.seq (.ret (.num 0))
           .skip))
          .skip)
        (.seq (.ite (.bin .or (.bin .lt (.var (name% "uc1")) (.num 128)) (.bin .gt (.var (name% "uc1")) (.num 191)))
          (.block
           (.seq (.expr (.set (name% "p") .null))
           (.seq (.ret (.num 0))
           .skip)))
          .skip)
        (.seq (.decl .auto (name% "uc2") (.cast (.prim .uchar) (.deref (.incr (name% "p")))))
        (.seq (.ite (.bin .eq (.var (name% "uc2")) (.num 0))
          (.block
           (.seq (.ret (.num 0))
           .skip))
          .skip)
        (.seq (.ite (.bin .or (.bin .lt (.var (name% "uc2")) (.num 128)) (.bin .gt (.var (name% "uc2")) (.num 191)))
          (.block
           (.seq (.expr (.set (name% "p") .null))
           (.seq (.ret (.num 0))
           .skip)))
          .skip)
        (.seq (.decl (.prim .c32) (name% "w") (.call (name% "rawDecodeUtf8") (.cons (.var (name% "uc")) (.cons (.var (name% "uc1")) (.cons (.var (name% "uc2")) .nil)))))
        (.seq (.ite (.call (name% "isFirstHalfUtf16") (.cons (.var (name% "w")) .nil))
          (.block
           (.seq (.decl .auto (name% "uc3") (.cast (.prim .uchar) (.deref (.incr (name% "p")))))
           (.seq (.ite (.bin .eq (.var (name% "uc3")) (.num 0))
             (.block
              (.seq (.ret (.num 0))
              .skip))
             .skip)
           (.seq (.ite (.bin .or (.bin .lt (.var (name% "uc3")) (.num 224)) (.bin .gt (.var (name% "uc3")) (.num 239)))
             (.block
              (.seq (.expr (.set (name% "p") .null))
              (.seq (.ret (.num 0))
              .skip)))
             .skip)
           (.seq (.decl .auto (name% "uc4") (.cast (.prim .uchar) (.deref (.incr (name% "p")))))
           (.seq (.ite (.bin .eq (.var (name% "uc4")) (.num 0))
             (.block
              (.seq (.ret (.num 0))
              .skip))
             .skip)
           (.seq (.ite (.bin .or (.bin .lt (.var (name% "uc4")) (.num 128)) (.bin .gt (.var (name% "uc4")) (.num 191)))
             (.block
              (.seq (.expr (.set (name% "p") .null))
              (.seq (.ret (.num 0))
              .skip)))
             .skip)
           (.seq (.decl .auto (name% "uc5") (.cast (.prim .uchar) (.deref (.incr (name% "p")))))
           (.seq (.ite (.bin .eq (.var (name% "uc5")) (.num 0))
             (.block
              (.seq (.ret (.num 0))
              .skip))
             .skip)
           (.seq (.ite (.bin .or (.bin .lt (.var (name% "uc5")) (.num 128)) (.bin .gt (.var (name% "uc5")) (.num 191)))
             (.block
              (.seq (.expr (.set (name% "p") .null))
              (.seq (.ret (.num 0))
              .skip)))
             .skip)
           (.seq (.decl (.prim .c32) (name% "w2") (.call (name% "rawDecodeUtf8") (.cons (.var (name% "uc3")) (.cons (.var (name% "uc4")) (.cons (.var (name% "uc5")) .nil)))))
           (.seq (.ite (.call (name% "isSecondHalfUtf16") (.cons (.var (name% "w2")) .nil))
             (.block
              (.seq (.ret (.bin .add (.bin .add (.num 65536) (.bin .shl (.bin .bitAnd (.var (name% "w")) (.num 1023)) (.num 10))) (.bin .bitAnd (.var (name% "w2")) (.num 1023))))
              .skip))
             (.block
              (.seq (.expr (.set (name% "p") .null))
              (.seq (.ret (.num 0))
              .skip))))
           .skip))))))))))))
          (.ite (.bin .or (.bin .lt (.var (name% "w")) (.num 2048)) (.call (name% "isSecondHalfUtf16") (.cons (.var (name% "w")) .nil)))
           (.block
            (.seq (.expr (.set (name% "p") .null))
            (.seq (.ret (.num 0))
            .skip)))
           (.block
            (.seq (.ret (.var (name% "w")))
            .skip))))
        .skip)))))))))
       (.ite (.bin .le (.var (name% "uc")) (.num 247))
        (.block
         (.seq (.decl .auto (name% "uc1") (.cast (.prim .uchar) (.deref (.incr (name% "p")))))
         (.seq (.ite (.bin .eq (.var (name% "uc1")) (.num 0))
           (.block
            (.seq (.ret (.num 0))
            .skip))
           .skip)
         (.seq (.ite (.bin .or (.bin .lt (.var (name% "uc1")) (.num 128)) (.bin .gt (.var (name% "uc1")) (.num 191)))
           (.block
            (.seq (.expr (.set (name% "p") .null))
            (.seq (.ret (.num 0))
            .skip)))
           .skip)
         (.seq (.decl .auto (name% "uc2") (.cast (.prim .uchar) (.deref (.incr (name% "p")))))
         (.seq (.ite (.bin .eq (.var (name% "uc2")) (.num 0))
           (.block
            (.seq (.ret (.num 0))
            .skip))
           .skip)
         (.seq (.ite (.bin .or (.bin .lt (.var (name% "uc2")) (.num 128)) (.bin .gt (.var (name% "uc2")) (.num 191)))
           (.block
            (.seq (.expr (.set (name% "p") .null))
            (.seq (.ret (.num 0))
            .skip)))
           .skip)
         (.seq (.decl .auto (name% "uc3") (.cast (.prim .uchar) (.deref (.incr (name% "p")))))
         (.seq (.ite (.bin .eq (.var (name% "uc3")) (.num 0))
           (.block
            (.seq (.ret (.num 0))
            .skip))
           .skip)
         (.seq (.ite (.bin .or (.bin .lt (.var (name% "uc3")) (.num 128)) (.bin .gt (.var (name% "uc3")) (.num 191)))
           (.block
            (.seq (.expr (.set (name% "p") .null))
            (.seq (.ret (.num 0))
            .skip)))
           .skip)
         (.seq (.decl .auto (name% "r") (.call (name% "rawDecodeUtf8") (.cons (.var (name% "uc")) (.cons (.var (name% "uc1")) (.cons (.var (name% "uc2")) (.cons (.var (name% "uc3")) .nil))))))
         (.seq (.ite (.bin .lt (.var (name% "r")) (.num 65536))
           (.block
            (.seq (.expr (.set (name% "p") .null))
            (.seq (.ret (.num 0))
            .skip)))
           .skip)
         (.seq (.ret (.var (name% "r")))
         .skip)))))))))))))
        (.ite (.bin .le (.var (name% "uc")) (.num 251))
         (.block
          (.seq (.decl .auto (name% "uc1") (.cast (.prim .uchar) (.deref (.incr (name% "p")))))
          (.seq (.ite (.bin .eq (.var (name% "uc1")) (.num 0))
            (.block
             (.seq (.ret (.num 0))
             .skip))
            .skip)
          (.seq (.ite (.bin .or (.bin .lt (.var (name% "uc1")) (.num 128)) (.bin .gt (.var (name% "uc1")) (.num 191)))
            (.block
             (.seq (.expr (.set (name% "p") .null))
             (.seq (.ret (.num 0))
             .skip)))
            .skip)
          (.seq (.decl .auto (name% "uc2") (.cast (.prim .uchar) (.deref (.incr (name% "p")))))
          (.seq (.ite (.bin .eq (.var (name% "uc2")) (.num 0))
            (.block
             (.seq (.ret (.num 0))
             .skip))
            .skip)
          (.seq (.ite (.bin .or (.bin .lt (.var (name% "uc2")) (.num 128)) (.bin .gt (.var (name% "uc2")) (.num 191)))
            (.block
             (.seq (.expr (.set (name% "p") .null))
             (.seq (.ret (.num 0))
             .skip)))
            .skip)
          (.seq (.decl .auto (name% "uc3") (.cast (.prim .uchar) (.deref (.incr (name% "p")))))
          (.seq (.ite (.bin .eq (.var (name% "uc3")) (.num 0))
            (.block
             (.seq (.ret (.num 0))
             .skip))
            .skip)
          (.seq (.ite (.bin .or (.bin .lt (.var (name% "uc3")) (.num 128)) (.bin .gt (.var (name% "uc3")) (.num 191)))
            (.block
             (.seq (.expr (.set (name% "p") .null))
             (.seq (.ret (.num 0))
             .skip)))
            .skip)
          (.seq (.decl .auto (name% "uc4") (.cast (.prim .uchar) (.deref (.incr (name% "p")))))
          (.seq (.ite (.bin .eq (.var (name% "uc4")) (.num 0))
            (.block
             (.seq (.ret (.num 0))
             .skip))
            .skip)
          (.seq (.ite (.bin .or (.bin .lt (.var (name% "uc4")) (.num 128)) (.bin .gt (.var (name% "uc4")) (.num 191)))
            (.block
             (.seq (.expr (.set (name% "p") .null))
             (.seq (.ret (.num 0))
             .skip)))
            .skip)
          (.seq (.decl .auto (name% "r") (.call (name% "rawDecodeUtf8") (.cons (.var (name% "uc")) (.cons (.var (name% "uc1")) (.cons (.var (name% "uc2")) (.cons (.var (name% "uc3")) (.cons (.var (name% "uc4")) .nil)))))))
          (.seq (.ite (.bin .lt (.var (name% "r")) (.num 2097152))
            (.block
             (.seq (.expr (.set (name% "p") .null))
             (.seq (.ret (.num 0))
             .skip)))
            .skip)
          (.seq (.ret (.var (name% "r")))
          .skip))))))))))))))))
         (.ite (.bin .le (.var (name% "uc")) (.num 253))
          (.block
           (.seq (.decl .auto (name% "uc1") (.cast (.prim .uchar) (.deref (.incr (name% "p")))))
           (.seq (.ite (.bin .eq (.var (name% "uc1")) (.num 0))
             (.block
              (.seq (.ret (.num 0))
              .skip))
             .skip)
           (.seq (.ite (.bin .or (.bin .lt (.var (name% "uc1")) (.num 128)) (.bin .gt (.var (name% "uc1")) (.num 191)))
             (.block
              (.seq (.expr (.set (name% "p") .null))
              (.seq (.ret (.num 0))
              .skip)))
             .skip)
           (.seq (.decl .auto (name% "uc2") (.cast (.prim .uchar) (.deref (.incr (name% "p")))))
           (.seq (.ite (.bin .eq (.var (name% "uc2")) (.num 0))
             (.block
              (.seq (.ret (.num 0))
              .skip))
             .skip)
           (.seq (.ite (.bin .or (.bin .lt (.var (name% "uc2")) (.num 128)) (.bin .gt (.var (name% "uc2")) (.num 191)))
             (.block
              (.seq (.expr (.set (name% "p") .null))
              (.seq (.ret (.num 0))
              .skip)))
             .skip)
           (.seq (.decl .auto (name% "uc3") (.cast (.prim .uchar) (.deref (.incr (name% "p")))))
           (.seq (.ite (.bin .eq (.var (name% "uc3")) (.num 0))
             (.block
              (.seq (.ret (.num 0))
              .skip))
             .skip)
           (.seq (.ite (.bin .or (.bin .lt (.var (name% "uc3")) (.num 128)) (.bin .gt (.var (name% "uc3")) (.num 191)))
             (.block
              (.seq (.expr (.set (name% "p") .null))
              (.seq (.ret (.num 0))
              .skip)))
             .skip)
           (.seq (.decl .auto (name% "uc4") (.cast (.prim .uchar) (.deref (.incr (name% "p")))))
           (.seq (.ite (.bin .eq (.var (name% "uc4")) (.num 0))
             (.block
              (.seq (.ret (.num 0))
              .skip))
             .skip)
           (.seq (.ite (.bin .or (.bin .lt (.var (name% "uc4")) (.num 128)) (.bin .gt (.var (name% "uc4")) (.num 191)))
             (.block
              (.seq (.expr (.set (name% "p") .null))
              (.seq (.ret (.num 0))
              .skip)))
             .skip)
           (.seq (.decl .auto (name% "uc5") (.cast (.prim .uchar) (.deref (.incr (name% "p")))))
           (.seq (.ite (.bin .eq (.var (name% "uc5")) (.num 0))
             (.block
              (.seq (.ret (.num 0))
              .skip))
             .skip)
           (.seq (.ite (.bin .or (.bin .lt (.var (name% "uc5")) (.num 128)) (.bin .gt (.var (name% "uc5")) (.num 191)))
             (.block
              (.seq (.expr (.set (name% "p") .null))
              (.seq (.ret (.num 0))
              .skip)))
             .skip)
           (.seq (.decl .auto (name% "r") (.call (name% "rawDecodeUtf8") (.cons (.var (name% "uc")) (.cons (.var (name% "uc1")) (.cons (.var (name% "uc2")) (.cons (.var (name% "uc3")) (.cons (.var (name% "uc4")) (.cons (.var (name% "uc5")) .nil))))))))
           (.seq (.ite (.bin .lt (.var (name% "r")) (.num 67108864))
             (.block
              (.seq (.expr (.set (name% "p") .null))
              (.seq (.ret (.num 0))
              .skip)))
             .skip)
           (.seq (.ret (.var (name% "r")))
           .skip)))))))))))))))))))
          (.block
           (.seq (.expr (.set (name% "p") .null))
           (.seq (.ret (.num 0))
           .skip))))))))))
  .skip))

/-- `source/encoding_check_predicate.cxx:66-81`. -/
def construct_E_body : Stmt :=
  (.seq (.ite (.bin .and (.bin .gt (.var (name% "t")) (.var (name% "kIsNone"))) (.bin .lt (.var (name% "t")) (.var (name% "kFirstInvalidEncoding"))))
    (.block
     (.seq (.expr (.set (name% "m_value") (.set (name% "m_mask") (.index (.var (name% "encodingTypeToEncodingFlag")) (.var (name% "t"))))))
     (.seq (.ite (.not (.var (name% "checkForIt")))
       (.block
        (.seq (.expr (.setOp .bitAnd (name% "m_value") (.compl (.var (name% "m_value")))))
        .skip))
       .skip)
     .skip)))
    .skip)
  .skip)

/-- `source/encoding_check_predicate.cxx:86-95`. -/
def andIf_E_body : Stmt :=
  (.seq (.make (.cls (name% "EncodingCheckPredicate")) (name% "other") (.cons (.var (name% "toCheckFor")) .nil))
  (.seq (.expr (.setOp .bitOr (name% "m_value") (.field (name% "other") (name% "m_value"))))
  (.seq (.expr (.setOp .bitOr (name% "m_mask") (.field (name% "other") (name% "m_mask"))))
  (.seq (.ret (.deref .this))
  .skip))))

/-- `source/encoding_check_predicate.cxx:100-109`. -/
def andIfNot_E_body : Stmt :=
  (.seq (.make (.cls (name% "EncodingCheckPredicate")) (name% "other") (.cons (.var (name% "toCheckFor")) (.cons (.bool false) .nil)))
  (.seq (.expr (.setOp .bitOr (name% "m_value") (.field (name% "other") (name% "m_value"))))
  (.seq (.expr (.setOp .bitOr (name% "m_mask") (.field (name% "other") (name% "m_mask"))))
  (.seq (.ret (.deref .this))
  .skip))))

/-- `source/encoding_check_predicate.cxx:114-122`. -/
def equals_Pred_body : Stmt :=
  (.seq (.ite (.bin .eq .this (.addr (name% "other")))
    (.block
     (.seq (.ret (.bool true))
     .skip))
    .skip)
  (.seq (.ret (.bin .and (.bin .eq (.var (name% "m_mask")) (.field (name% "other") (name% "m_mask"))) (.bin .eq (.var (name% "m_value")) (.field (name% "other") (name% "m_value")))))
  .skip))

/-- `source/encoding_check_predicate.cxx:127-135`. -/
def apply_8_body : Stmt :=
  (.seq (.ite (.bin .eq (.var (name% "m_mask")) (.num 0))
    (.block
     (.seq (.ret (.bool true))
     .skip))
    .skip)
  (.seq (.decl .auto (name% "cEncodingMask") (.call (name% "charToEncodingTypeMask") (.cons (.var (name% "c")) .nil)))
  (.seq (.ret (.bin .eq (.bin .bitAnd (.var (name% "cEncodingMask")) (.var (name% "m_mask"))) (.var (name% "m_value"))))
  .skip)))

/-- `source/encoding_check_predicate.cxx:140-148`. -/
def apply_16_body : Stmt :=
  (.seq (.ite (.bin .eq (.var (name% "m_mask")) (.num 0))
    (.block
     (.seq (.ret (.bool true))
     .skip))
    .skip)
  (.seq (.decl .auto (name% "cEncodingMask") (.call (name% "charToEncodingTypeMask") (.cons (.var (name% "c")) .nil)))
  (.seq (.ret (.bin .eq (.bin .bitAnd (.var (name% "cEncodingMask")) (.var (name% "m_mask"))) (.var (name% "m_value"))))
  .skip)))

/-- `source/encoding_check_predicate.cxx:153-161`. -/
def apply_32_body : Stmt :=
  (.seq (.ite (.bin .eq (.var (name% "m_mask")) (.num 0))
    (.block
     (.seq (.ret (.bool true))
     .skip))
    .skip)
  (.seq (.decl .auto (name% "cEncodingMask") (.call (name% "charToEncodingTypeMask") (.cons (.var (name% "c")) .nil)))
  (.seq (.ret (.bin .eq (.bin .bitAnd (.var (name% "cEncodingMask")) (.var (name% "m_mask"))) (.var (name% "m_value"))))
  .skip)))

/-- `source/string.cxx:74-85`. -/
def isUtf16Encodable_body : Stmt :=
  (.seq .skip
  (.seq (.ret (.bin .and (.bin .le (.var (name% "c")) (.num 1114111)) (.bin .eq (.bin .bitAnd (.var (name% "c")) (.compl (.num 2097151))) (.num 0))))
  .skip))

/-- `source/string.cxx:93-99`. -/
def isUtf16EscapedRange_32_body : Stmt :=
  (.seq (.ret (.bin .or (.call (name% "isFirstHalfUtf16") (.cons (.var (name% "c")) .nil)) (.call (name% "isSecondHalfUtf16") (.cons (.var (name% "c")) .nil))))
  .skip)

/-- `source/string.cxx:112-158`. -/
def sequenceSizeCharStarts_8_body : Stmt :=
  (.seq (.ite (.bin .eq (.var (name% "p")) .null)
    (.block
     (.seq (.ret (.neg (.num 1)))
     .skip))
    .skip)
  (.seq (.decl .auto (name% "uc") (.cast (.prim .uchar) (.deref (.var (name% "p")))))
  (.seq (.ite (.bin .eq (.var (name% "uc")) (.num 0))
    (.block
     (.seq (.ret (.num 0))
     .skip))
    .skip)
  (.seq (.ite (.bin .le (.var (name% "uc")) (.num 127))
    (.block
     (.seq (.ret (.num 1))
     .skip))
    (.ite (.bin .le (.var (name% "uc")) (.num 191))
     (.block
      (.seq (.ret (.neg (.num 1)))
      .skip))
     (.ite (.bin .le (.var (name% "uc")) (.num 223))
      (.block
       (.seq (.ret (.num 2))
       .skip))
      (.ite (.bin .le (.var (name% "uc")) (.num 239))
       (.block
        (.seq (.ret (.num 3))
        .skip))
       (.ite (.bin .le (.var (name% "uc")) (.num 247))
        (.block
         (.seq (.ret (.num 4))
         .skip))
        (.ite (.bin .le (.var (name% "uc")) (.num 251))
         (.block
          (.seq (.ret (.num 5))
          .skip))
         (.ite (.bin .le (.var (name% "uc")) (.num 253))
          (.block
           (.seq (.ret (.num 6))
           .skip))
          (.block
           (.seq (.ret (.neg (.num 1)))
           .skip)))))))))
  .skip))))

/-- `source/string.cxx:169-178`. -/
def isFirstHalfUtf16AsUtf8_8_body : Stmt :=
  (.seq (.ret (.call (name% "isFirstHalfUtf16") (.cons (.call (name% "rawDecodeUtf8") (.cons (.cast (.prim .uchar) (.index (.var (name% "p")) (.num 0))) (.cons (.cast (.prim .uchar) (.index (.var (name% "p")) (.num 1))) (.cons (.cast (.prim .uchar) (.index (.var (name% "p")) (.num 2))) .nil)))) .nil)))
  .skip)

/-- `source/string.cxx:189-198`. -/
def isSecondHalfUtf16AsUtf8_8_body : Stmt :=
  (.seq (.ret (.call (name% "isSecondHalfUtf16") (.cons (.call (name% "rawDecodeUtf8") (.cons (.cast (.prim .uchar) (.index (.var (name% "p")) (.num 0))) (.cons (.cast (.prim .uchar) (.index (.var (name% "p")) (.num 1))) (.cons (.cast (.prim .uchar) (.index (.var (name% "p")) (.num 2))) .nil)))) .nil)))
  .skip)

/-- `source/string.cxx:210-318`. -/
def isUtf8_8_Len_E_Pred_body : Stmt :=
  (.seq (.decl (.prim .bool) (name% "lengthTerminated") (.bin .ne (.var (name% "testLength")) (.num 0)))
  (.seq (.ite (.bin .or (.bin .lt (.var (name% "targetRange")) (.var (name% "kAscii"))) (.bin .gt (.var (name% "targetRange")) (.var (name% "kUnicode"))))
    (.block
     (.seq (.ret (.bool false))
     .skip))
    .skip)
  (.seq (.ite (.bin .or (.not (.var (name% "test"))) (.not (.deref (.var (name% "test")))))
    (.block
     (.seq (.ret (.bool true))
     .skip))
    .skip)
  (.seq (.decl (.prim (.enum (name% "RangeTypeFlags"))) (name% "restrictToThis") (.index (.var (name% "rangeTypeToRangeFlag")) (.var (name% "targetRange"))))
  (.seq (.decl (.prim .bool) (name% "isNullPred") (.bin .eq (.var (name% "pred")) (.make (.cls (name% "EncodingCheckPredicate")) .nil)))
  (.seq (.decl .auto (name% "lengthLeft") (.var (name% "testLength")))
  (.seq (.decl .auto (name% "pLast") (.bin .sub (.var (name% "test")) (.num 1)))
  (.seq (.decl (.prim .uint) (name% "usedThisTime") (.num 0))
  (.seq (.block
    (.seq (.decl .auto (name% "p") (.var (name% "test")))
    (.loop (.deref (.var (name% "p"))) (.expr (.incr (name% "p")))
     (.block
      (.seq (.decl (.prim (.enum (name% "RangeTypeFlags"))) (name% "rangeFlag") (.call (name% "getRangeFlag") (.cons (.deref (.var (name% "p"))) .nil)))
      (.seq (.ite (.bin .eq (.bin .bitAnd (.var (name% "rangeFlag")) (.var (name% "restrictToThis"))) (.num 0))
        (.block
         (.seq (.ret (.bool false))
         .skip))
        .skip)
      (.seq (.decl (.prim .uint) (name% "seqStarts") (.call (name% "sequenceSizeCharStarts") (.cons (.var (name% "p")) .nil)))
      (.seq (.ite (.var (name% "lengthTerminated"))
        (.block
         (.seq (.ite (.bin .eq (.var (name% "seqStarts")) (.num 3))
           (.block
            (.seq (.ite (.bin .and (.bin .gt (.var (name% "lengthLeft")) (.num 1)) (.call (name% "isSecondHalfUtf16AsUtf8") (.cons (.var (name% "p")) .nil)))
              (.block
               (.seq (.ret (.bool false))
               .skip))
              .skip)
            (.seq (.ite (.bin .and (.bin .ge (.var (name% "lengthLeft")) (.num 3)) (.call (name% "isFirstHalfUtf16AsUtf8") (.cons (.var (name% "p")) .nil)))
              (.block
               (.seq (.expr (.set (name% "seqStarts") (.num 6)))
               .skip))
              .skip)
            .skip)))
           .skip)
         (.seq (.ite (.bin .gt (.var (name% "seqStarts")) (.var (name% "lengthLeft")))
           (.block
            (.seq (.ret (.bool true))
            .skip))
           .skip)
         .skip)))
        .skip)
      (.seq (.decl .auto (name% "c") (.call (name% "decodeUtf8") (.cons (.var (name% "p")) .nil)))
      (.seq (.ite (.bin .eq (.var (name% "p")) .null)
        (.block
         (.seq (.ret (.bool false))
         .skip))
        .skip)
      (.seq (.ite (.bin .eq (.var (name% "c")) (.num 0))
        (.block
         (.seq (.ret (.bin .eq (.deref (.var (name% "p"))) (.num 0)))
         .skip))
        .skip)
      (.seq (.ite (.var (name% "lengthTerminated"))
        (.block
         (.seq (.expr (.set (name% "usedThisTime") (.cast (.prim .uint) (.bin .sub (.var (name% "p")) (.var (name% "pLast"))))))
         (.seq (.ite (.bin .ne (.var (name% "seqStarts")) (.var (name% "usedThisTime")))
           (.block
            (.seq (.ret (.bool false))
            .skip))
           .skip)
         (.seq (.expr (.set (name% "pLast") (.var (name% "p"))))
         .skip))))
        .skip)
      (.seq (.decl (.prim (.enum (name% "RangeTypeFlags"))) (name% "charFlag") (.call (name% "getCharEncodableRangeFlags") (.cons (.var (name% "c")) .nil)))
      (.seq (.ite (.bin .or (.bin .eq (.bin .bitAnd (.var (name% "charFlag")) (.var (name% "restrictToThis"))) (.num 0)) (.bin .and (.not (.var (name% "isNullPred"))) (.not (.call (name% "pred") (.cons (.var (name% "c")) .nil)))))
        (.block
         (.seq (.ret (.bool false))
         .skip))
        .skip)
      (.seq (.ite (.var (name% "lengthTerminated"))
        (.block
         (.seq (.ite (.bin .le (.var (name% "lengthLeft")) (.var (name% "usedThisTime")))
           (.block
            (.seq (.ret (.bool true))
            .skip))
           .skip)
         (.seq (.expr (.setOp .sub (name% "lengthLeft") (.var (name% "usedThisTime"))))
         .skip)))
        .skip)
      .skip)))))))))))))))
  (.seq (.ret (.not (.var (name% "lengthTerminated"))))
  .skip))))))))))

/-- `source/string.cxx:331-334`. -/
def getUnicodeVersionSupported_body : Stmt :=
  (.seq (.ret (.var (name% "supportedUnicodeVersion")))
  .skip)

/-- `source/string.cxx:338-341`. -/
def isUtf8_S8_E_Pred_body : Stmt :=
  (.seq (.ret (.call (name% "isUtf8") (.cons (.method (name% "test") (name% "c_str") .nil) (.cons (.num 0) (.cons (.var (name% "targetRange")) (.cons (.var (name% "pred")) .nil))))))
  .skip)

/-- `source/string.cxx:343-346`. -/
def isUtf8_8_E_Pred_body : Stmt :=
  (.seq (.ret (.call (name% "isUtf8") (.cons (.var (name% "test")) (.cons (.num 0) (.cons (.var (name% "targetRange")) (.cons (.var (name% "pred")) .nil))))))
  .skip)

/-- `source/string.cxx:348-351`. -/
def isUtf8_8_Len_Pred_body : Stmt :=
  (.seq (.ret (.call (name% "isUtf8") (.cons (.var (name% "test")) (.cons (.var (name% "testLength")) (.cons (.var (name% "kUtf8")) (.cons (.var (name% "pred")) .nil))))))
  .skip)

/-- `source/string.cxx:355-358`. -/
def isUtf16_S16_E_Pred_body : Stmt :=
  (.seq (.ret (.call (name% "isUtf16") (.cons (.method (name% "test") (name% "c_str") .nil) (.cons (.var (name% "targetRange")) (.cons (.var (name% "pred")) .nil)))))
  .skip)

/-- `source/string.cxx:360-410`. -/
def isUtf16_16_E_Pred_body : Stmt :=
  (.seq (.ite (.bin .or (.bin .lt (.var (name% "targetRange")) (.var (name% "kAscii"))) (.bin .gt (.var (name% "targetRange")) (.var (name% "kUnicode"))))
    (.block
     (.seq (.ret (.bool false))
     .skip))
    .skip)
  (.seq (.ite (.bin .or (.not (.var (name% "test"))) (.not (.deref (.var (name% "test")))))
    (.block
     (.seq (.ret (.bool true))
     .skip))
    .skip)
  (.seq (.decl (.prim (.enum (name% "RangeTypeFlags"))) (name% "restrictToThis") (.index (.var (name% "rangeTypeToRangeFlag")) (.var (name% "targetRange"))))
  (.seq (.decl (.prim .bool) (name% "isNullPred") (.bin .eq (.var (name% "pred")) (.make (.cls (name% "EncodingCheckPredicate")) .nil)))
  (.seq (.block
    (.seq (.decl .auto (name% "p") (.var (name% "test")))
    (.loop (.deref (.var (name% "p"))) (.expr (.incr (name% "p")))
     (.block
      (.seq (.decl (.prim (.enum (name% "RangeTypeFlags"))) (name% "rangeFlag") (.call (name% "getRangeFlag") (.cons (.deref (.var (name% "p"))) .nil)))
      (.seq (.ite (.bin .eq (.bin .bitAnd (.var (name% "rangeFlag")) (.var (name% "restrictToThis"))) (.num 0))
        (.block
         (.seq (.ret (.bool false))
         .skip))
        .skip)
      (.seq (.decl .auto (name% "c") (.deref (.var (name% "p"))))
      (.seq (.make (.prim (.enum (name% "RangeTypeFlags"))) (name% "charFlag") .nil)
      (.seq (.ite (.call (name% "isFirstHalfUtf16") (.cons (.var (name% "c")) .nil))
        (.block
         (.seq (.decl (.prim .c16) (name% "c1") (.deref (.incr (name% "p"))))
         (.seq (.ite (.bin .eq (.var (name% "c1")) (.num 0))
           (.block
            (.seq .brk
            .skip))
           .skip)
         (.seq (.ite (.not (.call (name% "isSecondHalfUtf16") (.cons (.var (name% "c1")) .nil)))
           (.block
            (.seq (.ret (.bool false))
            .skip))
           .skip)
         (.seq (.expr (.set (name% "charFlag") (.var (name% "k21BitUnicodeFlags"))))
         .skip)))))
        (.block
         (.seq (.expr (.set (name% "charFlag") (.call (name% "getCharEncodableRangeFlags") (.cons (.var (name% "c")) .nil))))
         .skip)))
      (.seq (.ite (.bin .or (.bin .eq (.bin .bitAnd (.var (name% "charFlag")) (.var (name% "restrictToThis"))) (.num 0)) (.bin .and (.not (.var (name% "isNullPred"))) (.not (.call (name% "pred") (.cons (.var (name% "c")) .nil)))))
        (.block
         (.seq (.ret (.bool false))
         .skip))
        .skip)
      .skip))))))))))
  (.seq (.ret (.bool true))
  .skip))))))

/-- `source/string.cxx:414-417`. -/
def isUcs2_S16_E_Pred_body : Stmt :=
  (.seq (.ret (.call (name% "isUcs2") (.cons (.method (name% "test") (name% "c_str") .nil) (.cons (.var (name% "targetRange")) (.cons (.var (name% "pred")) .nil)))))
  .skip)

/-- `source/string.cxx:419-448`. -/
def isUcs2_16_E_Pred_body : Stmt :=
  (.seq (.ite (.bin .or (.bin .lt (.var (name% "targetRange")) (.var (name% "kAscii"))) (.bin .gt (.var (name% "targetRange")) (.var (name% "kUnicode"))))
    (.block
     (.seq (.ret (.bool false))
     .skip))
    .skip)
  (.seq (.ite (.bin .or (.not (.var (name% "test"))) (.not (.deref (.var (name% "test")))))
    (.block
     (.seq (.ret (.bool true))
     .skip))
    .skip)
  (.seq (.decl (.prim (.enum (name% "RangeTypeFlags"))) (name% "restrictToThis") (.index (.var (name% "rangeTypeToRangeFlag")) (.var (name% "targetRange"))))
  (.seq (.decl (.prim .bool) (name% "isNullPred") (.bin .eq (.var (name% "pred")) (.make (.cls (name% "EncodingCheckPredicate")) .nil)))
  (.seq (.block
    (.seq (.decl .auto (name% "p") (.var (name% "test")))
    (.loop (.deref (.var (name% "p"))) (.expr (.incr (name% "p")))
     (.block
      (.seq (.decl .auto (name% "c") (.deref (.var (name% "p"))))
      (.seq (.decl (.prim (.enum (name% "RangeTypeFlags"))) (name% "charFlag") (.call (name% "getCharEncodableRangeFlags") (.cons (.var (name% "c")) .nil)))
      (.seq (.ite (.call (name% "isUtf16EscapedRange") (.cons (.var (name% "c")) .nil))
        (.block
         (.seq (.ret (.bool false))
         .skip))
        .skip)
      (.seq (.ite (.bin .or (.bin .eq (.bin .bitAnd (.var (name% "charFlag")) (.var (name% "restrictToThis"))) (.num 0)) (.bin .and (.not (.var (name% "isNullPred"))) (.not (.call (name% "pred") (.cons (.var (name% "c")) .nil)))))
        (.block
         (.seq (.ret (.bool false))
         .skip))
        .skip)
      .skip))))))))
  (.seq (.ret (.bool true))
  .skip))))))

/-- `source/string.cxx:452-455`. -/
def isUcs4_S32_E_Pred_body : Stmt :=
  (.seq (.ret (.call (name% "isUcs4") (.cons (.method (name% "test") (name% "c_str") .nil) (.cons (.var (name% "targetRange")) (.cons (.var (name% "pred")) .nil)))))
  .skip)

/-- `source/string.cxx:457-481`. -/
def isUcs4_32_E_Pred_body : Stmt :=
  (.seq (.ite (.bin .or (.bin .lt (.var (name% "targetRange")) (.var (name% "kAscii"))) (.bin .gt (.var (name% "targetRange")) (.var (name% "kUnicode"))))
    (.block
     (.seq (.ret (.bool false))
     .skip))
    .skip)
  (.seq (.ite (.bin .or (.not (.var (name% "test"))) (.not (.deref (.var (name% "test")))))
    (.block
     (.seq (.ret (.bool true))
     .skip))
    .skip)
  (.seq (.decl (.prim (.enum (name% "RangeTypeFlags"))) (name% "restrictToThis") (.index (.var (name% "rangeTypeToRangeFlag")) (.var (name% "targetRange"))))
  (.seq (.decl (.prim .bool) (name% "isNullPred") (.bin .eq (.var (name% "pred")) (.make (.cls (name% "EncodingCheckPredicate")) .nil)))
  (.seq (.block
    (.seq (.decl .auto (name% "p") (.var (name% "test")))
    (.loop (.deref (.var (name% "p"))) (.expr (.incr (name% "p")))
     (.block
      (.seq (.decl .auto (name% "c") (.deref (.var (name% "p"))))
      (.seq (.ite (.bin .or (.bin .eq (.bin .bitAnd (.call (name% "getCharEncodableRangeFlags") (.cons (.var (name% "c")) .nil)) (.var (name% "restrictToThis"))) (.num 0)) (.bin .and (.not (.var (name% "isNullPred"))) (.not (.call (name% "pred") (.cons (.var (name% "c")) .nil)))))
        (.block
         (.seq (.ret (.bool false))
         .skip))
        .skip)
      .skip))))))
  (.seq (.ret (.bool true))
  .skip))))))

/-- `source/string.cxx:487-514`. -/
def toUtf8_16_body : Stmt :=
  (.seq (.make (.str (.prim .char)) (name% "result") .nil)
  (.seq (.ite (.bin .and (.var (name% "src")) (.deref (.var (name% "src"))))
    (.block
     (.seq (.make (.adder (.prim .char)) (name% "adder") (.cons (.var (name% "result")) .nil))
     (.seq (.block
       (.seq (.decl .auto (name% "p") (.var (name% "src")))
       (.loop (.deref (.var (name% "p"))) (.expr (.incr (name% "p")))
        (.block
         (.seq (.decl .auto (name% "c") (.deref (.var (name% "p"))))
         (.seq (.ite (.call (name% "isFirstHalfUtf16") (.cons (.var (name% "c")) .nil))
           (.block
            (.seq (.decl (.prim .c16) (name% "c1") (.deref (.incr (name% "p"))))
            (.seq (.ite (.bin .eq (.var (name% "c1")) (.num 0))
              (.block
               (.seq .brk
               .skip))
              .skip)
            (.seq (.ite (.not (.call (name% "isSecondHalfUtf16") (.cons (.var (name% "c1")) .nil)))
              (.block
               (.seq (.ret (.make (.str (.prim .char)) .nil))
               .skip))
              .skip)
            (.seq (.decl (.prim .c32) (name% "c32") (.call (name% "rawDecodeUtf16") (.cons (.var (name% "c")) (.cons (.var (name% "c1")) .nil))))
            (.seq (.expr (.call (name% "encodeUtf8") (.cons (.var (name% "c32")) (.cons (.var (name% "adder")) .nil))))
            .skip))))))
           (.block
            (.seq (.expr (.call (name% "encodeUtf8") (.cons (.var (name% "c")) (.cons (.var (name% "adder")) .nil))))
            .skip)))
         .skip))))))
     .skip)))
    .skip)
  (.seq (.ret (.var (name% "result")))
  .skip)))

/-- `source/string.cxx:516-519`. -/
def toUtf8_S16_body : Stmt :=
  (.seq (.ret (.call (name% "toUtf8") (.cons (.method (name% "src") (name% "c_str") .nil) .nil)))
  .skip)

/-- `source/string.cxx:523-544`. -/
def toUtf8_32_body : Stmt :=
  (.seq (.make (.str (.prim .char)) (name% "result") .nil)
  (.seq (.ite (.bin .and (.var (name% "src")) (.deref (.var (name% "src"))))
    (.block
     (.seq (.make (.adder (.prim .char)) (name% "adder") (.cons (.var (name% "result")) .nil))
     (.seq (.block
       (.seq (.decl .auto (name% "p") (.var (name% "src")))
       (.loop (.deref (.var (name% "p"))) (.expr (.incr (name% "p")))
        (.block
         (.seq (.decl .auto (name% "c") (.deref (.var (name% "p"))))
         (.seq (.ite (.bin .and (.bin .and (.bin .eq (.bin .bitAnd (.var (name% "c")) (.num 2147483648)) (.num 0)) (.not (.call (name% "isFirstHalfUtf16") (.cons (.var (name% "c")) .nil)))) (.not (.call (name% "isSecondHalfUtf16") (.cons (.var (name% "c")) .nil))))
           (.block
            (.seq (.expr (.call (name% "encodeUtf8") (.cons (.var (name% "c")) (.cons (.var (name% "adder")) .nil))))
            .skip))
           (.block
            (.seq (.ret (.make (.str (.prim .char)) .nil))
            .skip)))
         .skip))))))
     .skip)))
    .skip)
  (.seq (.ret (.var (name% "result")))
  .skip)))

/-- `source/string.cxx:546-549`. -/
def toUtf8_S32_body : Stmt :=
  (.seq (.ret (.call (name% "toUtf8") (.cons (.method (name% "src") (name% "c_str") .nil) .nil)))
  .skip)

/-- `source/string.cxx:555-576`. -/
def toUcs2_8_body : Stmt :=
  (.seq (.make (.str (.prim .c16)) (name% "result") .nil)
  (.seq (.ite (.bin .and (.var (name% "src")) (.deref (.var (name% "src"))))
    (.block
     (.seq (.block
       (.seq (.decl .auto (name% "p") (.var (name% "src")))
       (.loop (.deref (.var (name% "p"))) (.expr (.incr (name% "p")))
        (.block
         (.seq (.decl .auto (name% "c") (.call (name% "decodeUtf8") (.cons (.var (name% "p")) .nil)))
         (.seq (.ite (.bin .or (.bin .eq (.var (name% "p")) .null) (.bin .gt (.var (name% "c")) (.num 65535)))
           (.block
            (.seq (.ret (.make (.str (.prim .c16)) .nil))
            .skip))
           (.ite (.bin .eq (.var (name% "c")) (.num 0))
            (.block
             (.seq .brk
             .skip))
            .skip))
         (.seq (.expr (.method (name% "result") (name% "push_back") (.cons (.cast (.prim .c16) (.var (name% "c"))) .nil)))
         .skip)))))))
     .skip))
    .skip)
  (.seq (.ret (.var (name% "result")))
  .skip)))

/-- `source/string.cxx:578-581`. -/
def toUcs2_S8_body : Stmt :=
  (.seq (.ret (.call (name% "toUcs2") (.cons (.method (name% "src") (name% "c_str") .nil) .nil)))
  .skip)

/-- `source/string.cxx:585-601`. -/
def toUcs2_32_body : Stmt :=
  (.seq (.make (.str (.prim .c16)) (name% "result") .nil)
  (.seq (.ite (.bin .and (.var (name% "src")) (.deref (.var (name% "src"))))
    (.block
     (.seq (.block
       (.seq (.decl .auto (name% "p") (.var (name% "src")))
       (.loop (.deref (.var (name% "p"))) (.expr (.incr (name% "p")))
        (.block
         (.seq (.ite (.bin .or (.bin .or (.call (name% "isFirstHalfUtf16") (.cons (.deref (.var (name% "p"))) .nil)) (.call (name% "isSecondHalfUtf16") (.cons (.deref (.var (name% "p"))) .nil))) (.bin .ge (.deref (.var (name% "p"))) (.num 65536)))
           (.block
            (.seq (.ret (.make (.str (.prim .c16)) .nil))
            .skip))
           .skip)
         (.seq (.expr (.method (name% "result") (name% "push_back") (.cons (.cast (.prim .c16) (.deref (.var (name% "p")))) .nil)))
         .skip))))))
     .skip))
    .skip)
  (.seq (.ret (.var (name% "result")))
  .skip)))

/-- `source/string.cxx:603-606`. -/
def toUcs2_S32_body : Stmt :=
  (.seq (.ret (.call (name% "toUcs2") (.cons (.method (name% "src") (name% "c_str") .nil) .nil)))
  .skip)

/-- `source/string.cxx:612-634`. -/
def toUtf16_8_body : Stmt :=
  (.seq (.make (.str (.prim .c16)) (name% "result") .nil)
  (.seq (.ite (.bin .and (.var (name% "src")) (.deref (.var (name% "src"))))
    (.block
     (.seq (.make (.adder (.prim .c16)) (name% "adder") (.cons (.var (name% "result")) .nil))
     (.seq (.block
       (.seq (.decl .auto (name% "p") (.var (name% "src")))
       (.loop (.deref (.var (name% "p"))) (.expr (.incr (name% "p")))
        (.block
         (.seq (.decl .auto (name% "c") (.call (name% "decodeUtf8") (.cons (.var (name% "p")) .nil)))
         (.seq (.ite (.bin .or (.bin .eq (.var (name% "p")) .null) (.not (.call (name% "isUtf16Encodable") (.cons (.var (name% "c")) .nil))))
           (.block
            (.seq (.ret (.make (.str (.prim .c16)) .nil))
            .skip))
           (.ite (.bin .eq (.var (name% "c")) (.num 0))
            (.block
             (.seq .brk
             .skip))
            .skip))
         (.seq (.expr (.call (name% "rawEncodeUtf16") (.cons (.var (name% "c")) (.cons (.var (name% "adder")) .nil))))
         .skip)))))))
     .skip)))
    .skip)
  (.seq (.ret (.var (name% "result")))
  .skip)))

/-- `source/string.cxx:636-639`. -/
def toUtf16_S8_body : Stmt :=
  (.seq (.ret (.call (name% "toUtf16") (.cons (.method (name% "src") (name% "c_str") .nil) .nil)))
  .skip)

/-- `source/string.cxx:643-662`. -/
def toUtf16_32_body : Stmt :=
  (.seq (.make (.str (.prim .c16)) (name% "result") .nil)
  (.seq (.ite (.bin .and (.var (name% "src")) (.deref (.var (name% "src"))))
    (.block
     (.seq (.make (.adder (.prim .c16)) (name% "adder") (.cons (.var (name% "result")) .nil))
     (.seq (.block
       (.seq (.decl .auto (name% "p") (.var (name% "src")))
       (.loop (.deref (.var (name% "p"))) (.expr (.incr (name% "p")))
        (.block
         (.seq (.decl .auto (name% "c") (.deref (.var (name% "p"))))
         (.seq (.ite (.bin .or (.bin .or (.bin .or (.bin .eq (.var (name% "p")) .null) (.not (.call (name% "isUtf16Encodable") (.cons (.var (name% "c")) .nil)))) (.call (name% "isFirstHalfUtf16") (.cons (.var (name% "c")) .nil))) (.call (name% "isSecondHalfUtf16") (.cons (.var (name% "c")) .nil)))
           (.block
            (.seq (.ret (.make (.str (.prim .c16)) .nil))
            .skip))
           .skip)
         (.seq (.expr (.call (name% "rawEncodeUtf16") (.cons (.var (name% "c")) (.cons (.var (name% "adder")) .nil))))
         .skip)))))))
     .skip)))
    .skip)
  (.seq (.ret (.var (name% "result")))
  .skip)))

/-- `source/string.cxx:664-667`. -/
def toUtf16_S32_body : Stmt :=
  (.seq (.ret (.call (name% "toUtf16") (.cons (.method (name% "src") (name% "c_str") .nil) .nil)))
  .skip)

/-- `source/string.cxx:673-694`. -/
def toUcs4_8_body : Stmt :=
  (.seq (.make (.str (.prim .c32)) (name% "result") .nil)
  (.seq (.ite (.bin .and (.var (name% "src")) (.deref (.var (name% "src"))))
    (.block
     (.seq (.block
       (.seq (.decl .auto (name% "p") (.var (name% "src")))
       (.loop (.deref (.var (name% "p"))) (.expr (.incr (name% "p")))
        (.block
         (.seq (.decl .auto (name% "c") (.call (name% "decodeUtf8") (.cons (.var (name% "p")) .nil)))
         (.seq (.ite (.bin .eq (.var (name% "p")) .null)
           (.block
            (.seq (.ret (.make (.str (.prim .c32)) .nil))
            .skip))
           (.ite (.bin .eq (.var (name% "c")) (.num 0))
            (.block
             (.seq .brk
             .skip))
            .skip))
         (.seq (.expr (.method (name% "result") (name% "push_back") (.cons (.var (name% "c")) .nil)))
         .skip)))))))
     .skip))
    .skip)
  (.seq (.ret (.var (name% "result")))
  .skip)))

/-- `source/string.cxx:696-699`. -/
def toUcs4_S8_body : Stmt :=
  (.seq (.ret (.call (name% "toUcs4") (.cons (.method (name% "src") (name% "c_str") .nil) .nil)))
  .skip)

/-- `source/string.cxx:703-733`. -/
def toUcs4_16_body : Stmt :=
  (.seq (.make (.str (.prim .c32)) (name% "result") .nil)
  (.seq (.ite (.bin .and (.var (name% "src")) (.deref (.var (name% "src"))))
    (.block
     (.seq (.block
       (.seq (.decl .auto (name% "p") (.var (name% "src")))
       (.loop (.deref (.var (name% "p"))) (.expr (.incr (name% "p")))
        (.block
         (.seq (.decl .auto (name% "c") (.deref (.var (name% "p"))))
         (.seq (.ite (.call (name% "isFirstHalfUtf16") (.cons (.var (name% "c")) .nil))
           (.block
            (.seq (.decl (.prim .c16) (name% "c1") (.deref (.incr (name% "p"))))
            (.seq (.ite (.bin .eq (.var (name% "c1")) (.num 0))
              (.block
               (.seq .brk
               .skip))
              .skip)
            (.seq (.ite (.not (.call (name% "isSecondHalfUtf16") (.cons (.var (name% "c1")) .nil)))
              (.block
               (.seq (.ret (.make (.str (.prim .c32)) .nil))
               .skip))
              .skip)
            (.seq (.decl (.prim .c32) (name% "c32") (.call (name% "rawDecodeUtf16") (.cons (.var (name% "c")) (.cons (.var (name% "c1")) .nil))))
            (.seq (.expr (.method (name% "result") (name% "push_back") (.cons (.var (name% "c32")) .nil)))
            .skip))))))
           (.ite (.call (name% "isSecondHalfUtf16") (.cons (.var (name% "c")) .nil))
            (.block
             (.seq (.ret (.make (.str (.prim .c32)) .nil))
             .skip))
            (.block
             (.seq (.expr (.method (name% "result") (name% "push_back") (.cons (.var (name% "c")) .nil)))
             .skip))))
         .skip))))))
     .skip))
    .skip)
  (.seq (.ret (.var (name% "result")))
  .skip)))

/-- `source/string.cxx:735-738`. -/
def toUcs4_S16_body : Stmt :=
  (.seq (.ret (.call (name% "toUcs4") (.cons (.method (name% "src") (name% "c_str") .nil) .nil)))
  .skip)

/-- `source/string.cxx:744-747`. -/
def unicodeLength_S8_body : Stmt :=
  (.seq (.ret (.call (name% "unicodeLength") (.cons (.method (name% "src") (name% "c_str") .nil) .nil)))
  .skip)

/-- `source/string.cxx:749-836`. -/
def unicodeLength_8_Len_body : Stmt :=
  (.seq (.ite (.bin .or (.not (.var (name% "src"))) (.not (.deref (.var (name% "src")))))
    (.block
     (.seq (.ret (.num 0))
     .skip))
    .skip)
  (.seq (.decl (.prim .bool) (name% "lengthTerminated") (.bin .ne (.var (name% "testLength")) (.num 0)))
  (.seq (.decl .auto (name% "lengthLeft") (.var (name% "testLength")))
  (.seq (.decl .auto (name% "pLast") (.bin .sub (.var (name% "src")) (.num 1)))
  (.seq (.decl (.prim .uint) (name% "usedThisTime") (.num 0))
  (.seq (.decl (.prim .uint) (name% "r") (.num 0))
  (.seq (.decl (.prim (.enum (name% "RangeTypeFlags"))) (name% "restrictToUnicode") (.index (.var (name% "rangeTypeToRangeFlag")) (.var (name% "kUnicode"))))
  (.seq (.block
    (.seq (.decl .auto (name% "p") (.var (name% "src")))
    (.loop (.deref (.var (name% "p"))) (.expr (.comma (.incr (name% "p")) (.incr (name% "r"))))
     (.block
      (.seq (.ite (.var (name% "lengthTerminated"))
        (.block
         (.seq (.decl (.prim .uint) (name% "seqStarts") (.call (name% "sequenceSizeCharStarts") (.cons (.var (name% "p")) .nil)))
         (.seq (.ite (.bin .eq (.var (name% "seqStarts")) (.num 3))
           (.block
            (.seq (.ite (.bin .and (.bin .gt (.var (name% "lengthLeft")) (.num 1)) (.call (name% "isSecondHalfUtf16AsUtf8") (.cons (.var (name% "p")) .nil)))
              (.block
               (.seq (.ret (.num 0))
               .skip))
              .skip)
            (.seq (.ite (.bin .and (.bin .ge (.var (name% "lengthLeft")) (.num 3)) (.call (name% "isFirstHalfUtf16AsUtf8") (.cons (.var (name% "p")) .nil)))
              (.block
               (.seq (.expr (.set (name% "seqStarts") (.num 6)))
               .skip))
              .skip)
            .skip)))
           .skip)
         (.seq (.ite (.bin .gt (.var (name% "seqStarts")) (.var (name% "lengthLeft")))
           (.block
            (.seq (.ret (.var (name% "r")))
            .skip))
           .skip)
         .skip))))
        .skip)
      (.seq (.decl .auto (name% "c") (.call (name% "decodeUtf8") (.cons (.var (name% "p")) .nil)))
      (.seq (.ite (.bin .or (.bin .eq (.var (name% "p")) .null) (.bin .eq (.bin .bitAnd (.var (name% "restrictToUnicode")) (.call (name% "getCharEncodableRangeFlags") (.cons (.var (name% "c")) .nil))) (.num 0)))
        (.block
         (.seq (.ret (.num 0))
         .skip))
        .skip)
      (.seq (.ite (.bin .eq (.var (name% "c")) (.num 0))
        (.block
         (.seq (.ret (.cond (.bin .eq (.deref (.var (name% "p"))) (.num 0)) (.bin .sub (.var (name% "r")) (.num 1)) (.num 0)))
         .skip))
        .skip)
      (.seq (.ite (.var (name% "lengthTerminated"))
        (.block
         (.seq (.expr (.set (name% "usedThisTime") (.cast (.prim .uint) (.bin .sub (.var (name% "p")) (.var (name% "pLast"))))))
         (.seq (.expr (.set (name% "pLast") (.var (name% "p"))))
         .skip)))
        .skip)
      (.seq (.ite (.var (name% "lengthTerminated"))
        (.block
         (.seq (.ite (.bin .eq (.var (name% "lengthLeft")) (.var (name% "usedThisTime")))
           (.block
            (.seq (.ret (.bin .add (.var (name% "r")) (.num 1)))
            .skip))
           .skip)
         (.seq (.expr (.setOp .sub (name% "lengthLeft") (.var (name% "usedThisTime"))))
         .skip)))
        .skip)
      .skip))))))))))
  (.seq (.ret (.cond (.var (name% "lengthTerminated")) (.num 0) (.var (name% "r"))))
  .skip)))))))))

/-- `source/string.cxx:842-845`. -/
def unicodeLength_S16_body : Stmt :=
  (.seq (.ret (.call (name% "unicodeLength") (.cons (.method (name% "src") (name% "c_str") .nil) .nil)))
  .skip)

/-- `source/string.cxx:847-915`. -/
def unicodeLength_16_Len_body : Stmt :=
  (.seq (.decl (.prim .bool) (name% "lengthTerminated") (.bin .ne (.var (name% "testLength")) (.num 0)))
  (.seq (.decl .auto (name% "lengthLeft") (.var (name% "testLength")))
  (.seq (.decl .auto (name% "pLast") (.bin .sub (.var (name% "src")) (.num 1)))
  (.seq (.decl (.prim .uint) (name% "usedThisTime") (.num 0))
  (.seq (.decl (.prim .uint) (name% "r") (.num 0))
  (.seq (.block
    (.seq (.decl .auto (name% "p") (.var (name% "src")))
    (.loop (.deref (.var (name% "p"))) (.expr (.comma (.incr (name% "p")) (.incr (name% "r"))))
     (.block
      (.seq (.decl .auto (name% "c") (.deref (.var (name% "p"))))
      (.seq (.ite (.call (name% "isSecondHalfUtf16") (.cons (.var (name% "c")) .nil))
        (.block
         (.seq (.ret (.num 0))
         .skip))
        .skip)
      (.seq (.decl (.prim .bool) (name% "isFirstHalf") (.call (name% "isFirstHalfUtf16") (.cons (.var (name% "c")) .nil)))
      (.seq (.decl (.prim .uint) (name% "wordsNeeded") (.cond (.var (name% "isFirstHalf")) (.num 2) (.num 1)))
      (.seq (.ite (.bin .and (.var (name% "lengthTerminated")) (.bin .gt (.var (name% "wordsNeeded")) (.var (name% "lengthLeft"))))
        (.block
         (.seq (.ret (.var (name% "r")))
         .skip))
        .skip)
      (.seq (.decl .auto (name% "c1") (.index (.var (name% "p")) (.num 1)))
      (.seq (.ite (.bin .and (.var (name% "isFirstHalf")) (.bin .eq (.var (name% "c1")) (.num 0)))
        (.block
         (.seq (.ret (.bin .sub (.var (name% "r")) (.num 1)))
         .skip))
        .skip)
      (.seq (.decl (.prim .bool) (name% "isTwoHalves") (.bin .and (.var (name% "isFirstHalf")) (.call (name% "isSecondHalfUtf16") (.cons (.var (name% "c1")) .nil))))
      (.seq (.ite (.var (name% "isTwoHalves"))
        (.block
         (.seq (.expr (.incr (name% "p")))
         .skip))
        (.ite (.var (name% "isFirstHalf"))
         (.block
          (.seq (.ret (.num 0))
          .skip))
         .skip))
      (.seq (.ite (.var (name% "lengthTerminated"))
        (.block
         (.seq (.expr (.set (name% "usedThisTime") (.cast (.prim .uint) (.bin .sub (.var (name% "p")) (.var (name% "pLast"))))))
         (.seq (.expr (.set (name% "pLast") (.var (name% "p"))))
         .skip)))
        .skip)
      (.seq (.ite (.var (name% "lengthTerminated"))
        (.block
         (.seq (.ite (.bin .eq (.var (name% "lengthLeft")) (.var (name% "usedThisTime")))
           (.block
            (.seq (.ret (.bin .add (.var (name% "r")) (.num 1)))
            .skip))
           .skip)
         (.seq (.expr (.setOp .sub (name% "lengthLeft") (.var (name% "usedThisTime"))))
         .skip)))
        .skip)
      .skip)))))))))))))))
  (.seq (.ret (.cond (.var (name% "lengthTerminated")) (.num 0) (.var (name% "r"))))
  .skip)))))))

/-- `source/string.cxx:921-924`. -/
def unicodeLength_S32_body : Stmt :=
  (.seq (.ret (.call (name% "unicodeLength") (.cons (.method (name% "src") (name% "c_str") .nil) .nil)))
  .skip)

/-- `source/string.cxx:926-946`. -/
def unicodeLength_32_Len_body : Stmt :=
  (.seq (.decl (.prim .bool) (name% "lengthTerminated") (.bin .ne (.var (name% "testLength")) (.num 0)))
  (.seq (.decl (.prim .uint) (name% "r") (.num 0))
  (.seq (.block
    (.seq (.decl .auto (name% "p") (.var (name% "src")))
    (.loop (.deref (.var (name% "p"))) (.expr (.comma (.incr (name% "p")) (.incr (name% "r"))))
     (.block
      (.seq (.ite (.bin .or (.call (name% "isFirstHalfUtf16") (.cons (.deref (.var (name% "p"))) .nil)) (.call (name% "isSecondHalfUtf16") (.cons (.deref (.var (name% "p"))) .nil)))
        (.block
         (.seq (.ret (.num 0))
         .skip))
        .skip)
      (.seq (.ite (.bin .and (.var (name% "lengthTerminated")) (.bin .eq (.bin .add (.var (name% "p")) (.num 1)) (.bin .add (.var (name% "src")) (.var (name% "testLength")))))
        (.block
         (.seq (.ret (.bin .add (.var (name% "r")) (.num 1)))
         .skip))
        .skip)
      .skip))))))
  (.seq (.ret (.cond (.var (name% "lengthTerminated")) (.num 0) (.var (name% "r"))))
  .skip))))

/-- `source/string_toutf8.cxx:51-146`. -/
def toUtf8_8_E_body : Stmt :=
  (.seq (.ite (.bin .or (.bin .eq (.var (name% "src")) .null) (.bin .eq (.deref (.var (name% "src"))) (.chr 0)))
    (.block
     (.seq (.ret (.make (.str (.prim .char)) .nil))
     .skip))
    (.ite (.bin .eq (.var (name% "srcType")) (.var (name% "kSrcUnicode")))
     (.block
      (.seq (.ret (.make (.str (.prim .char)) (.cons (.var (name% "src")) .nil)))
      .skip))
     (.ite (.bin .eq (.var (name% "srcType")) (.var (name% "kSrcCP1252")))
      (.block
       (.seq (.make (.str (.prim .char)) (name% "result") .nil)
       (.seq (.make (.adder (.prim .char)) (name% "adder") (.cons (.var (name% "result")) .nil))
       (.seq (.block
         (.seq (.decl .auto (name% "p") (.var (name% "src")))
         (.loop (.deref (.var (name% "p"))) (.expr (.incr (name% "p")))
          (.block
           (.seq (.decl (.prim .uchar) (name% "uc") (.cast (.prim .uchar) (.deref (.var (name% "p")))))
           (.seq (.ite (.bin .le (.var (name% "uc")) (.num 127))
             (.block
              (.seq (.expr (.call (name% "adder") (.cons (.var (name% "uc")) .nil)))
              .skip))
             (.ite (.bin .le (.var (name% "uc")) (.num 159))
              (.block
               (.seq (.array (.prim .c16) (name% "cp125280_9F") (.cons (.num 8364) (.cons (.num 0) (.cons (.num 8218) (.cons (.num 402) (.cons (.num 8222) (.cons (.num 8230) (.cons (.num 8224) (.cons (.num 8225) (.cons (.num 710) (.cons (.num 8240) (.cons (.num 352) (.cons (.num 8249) (.cons (.num 338) (.cons (.num 0) (.cons (.num 381) (.cons (.num 0) (.cons (.num 0) (.cons (.num 8216) (.cons (.num 8217) (.cons (.num 8220) (.cons (.num 8221) (.cons (.num 8226) (.cons (.num 8211) (.cons (.num 8212) (.cons (.num 732) (.cons (.num 8482) (.cons (.num 353) (.cons (.num 8250) (.cons (.num 339) (.cons (.num 0) (.cons (.num 382) (.cons (.num 376) .nil)))))))))))))))))))))))))))))))))
               (.seq (.decl .auto (name% "uniP") (.index (.var (name% "cp125280_9F")) (.bin .sub (.var (name% "uc")) (.num 128))))
               (.seq (.ite (.bin .eq (.var (name% "uniP")) (.num 0))
                 (.block
                  (.seq (.ret (.make (.str (.prim .char)) .nil))
                  .skip))
                 (.block
                  (.seq (.expr (.call (name% "encodeUtf8") (.cons (.var (name% "uniP")) (.cons (.var (name% "adder")) .nil))))
                  .skip)))
               .skip))))
              (.block
               (.seq (.expr (.call (name% "encodeUtf8") (.cons (.var (name% "uc")) (.cons (.var (name% "adder")) .nil))))
               .skip))))
           .skip))))))
       (.seq (.ret (.var (name% "result")))
       .skip)))))
      (.ite (.bin .eq (.var (name% "srcType")) (.var (name% "kSrcCP1250")))
       (.block
        (.seq (.make (.str (.prim .char)) (name% "result") .nil)
        (.seq (.make (.adder (.prim .char)) (name% "adder") (.cons (.var (name% "result")) .nil))
        (.seq (.block
          (.seq (.decl .auto (name% "p") (.var (name% "src")))
          (.loop (.deref (.var (name% "p"))) (.expr (.incr (name% "p")))
           (.block
            (.seq (.decl (.prim .uchar) (name% "uc") (.cast (.prim .uchar) (.deref (.var (name% "p")))))
            (.seq (.ite (.bin .le (.var (name% "uc")) (.num 127))
              (.block
               (.seq (.expr (.call (name% "adder") (.cons (.var (name% "uc")) .nil)))
               .skip))
              (.block
               (.seq (.array (.prim .c16) (name% "cp125080_FF") (.cons (.num 8364) (.cons (.num 0) (.cons (.num 8218) (.cons (.num 0) (.cons (.num 8222) (.cons (.num 8230) (.cons (.num 8224) (.cons (.num 8225) (.cons (.num 0) (.cons (.num 8240) (.cons (.num 352) (.cons (.num 8249) (.cons (.num 346) (.cons (.num 356) (.cons (.num 381) (.cons (.num 377) (.cons (.num 0) (.cons (.num 8216) (.cons (.num 8217) (.cons (.num 8220) (.cons (.num 8221) (.cons (.num 8226) (.cons (.num 8211) (.cons (.num 8212) (.cons (.num 0) (.cons (.num 8482) (.cons (.num 353) (.cons (.num 8250) (.cons (.num 347) (.cons (.num 357) (.cons (.num 382) (.cons (.num 378) (.cons (.num 160) (.cons (.num 711) (.cons (.num 728) (.cons (.num 321) (.cons (.num 164) (.cons (.num 260) (.cons (.num 166) (.cons (.num 167) (.cons (.num 168) (.cons (.num 169) (.cons (.num 350) (.cons (.num 171) (.cons (.num 172) (.cons (.num 173) (.cons (.num 174) (.cons (.num 379) (.cons (.num 176) (.cons (.num 177) (.cons (.num 731) (.cons (.num 322) (.cons (.num 180) (.cons (.num 181) (.cons (.num 182) (.cons (.num 183) (.cons (.num 184) (.cons (.num 261) (.cons (.num 351) (.cons (.num 187) (.cons (.num 317) (.cons (.num 733) (.cons (.num 318) (.cons (.num 380) (.cons (.num 340) (.cons (.num 193) (.cons (.num 194) (.cons (.num 258) (.cons (.num 196) (.cons (.num 313) (.cons (.num 262) (.cons (.num 199) (.cons (.num 268) (.cons (.num 201) (.cons (.num 280) (.cons (.num 203) (.cons (.num 282) (.cons (.num 205) (.cons (.num 206) (.cons (.num 270) (.cons (.num 272) (.cons (.num 323) (.cons (.num 327) (.cons (.num 211) (.cons (.num 212) (.cons (.num 336) (.cons (.num 214) (.cons (.num 215) (.cons (.num 344) (.cons (.num 366) (.cons (.num 218) (.cons (.num 368) (.cons (.num 220) (.cons (.num 221) (.cons (.num 354) (.cons (.num 223) (.cons (.num 341) (.cons (.num 225) (.cons (.num 226) (.cons (.num 259) (.cons (.num 228) (.cons (.num 314) (.cons (.num 263) (.cons (.num 231) (.cons (.num 269) (.cons (.num 233) (.cons (.num 281) (.cons (.num 235) (.cons (.num 283) (.cons (.num 237) (.cons (.num 238) (.cons (.num 271) (.cons (.num 273) (.cons (.num 324) (.cons (.num 328) (.cons (.num 243) (.cons (.num 244) (.cons (.num 337) (.cons (.num 246) (.cons (.num 247) (.cons (.num 345) (.cons (.num 367) (.cons (.num 250) (.cons (.num 369) (.cons (.num 252) (.cons (.num 253) (.cons (.num 355) (.cons (.num 729) .nil)))))))))))))))))))))))))))))))))))))))))))))))))))))))))))))))))))))))))))))))))))))))))))))))))))))))))))))))))))))))))))))))))
               (.seq (.decl .auto (name% "uniP") (.index (.var (name% "cp125080_FF")) (.bin .sub (.var (name% "uc")) (.num 128))))
               (.seq (.ite (.bin .eq (.var (name% "uniP")) (.num 0))
                 (.block
                  (.seq (.ret (.make (.str (.prim .char)) .nil))
                  .skip))
                 (.block
                  (.seq (.expr (.call (name% "encodeUtf8") (.cons (.var (name% "uniP")) (.cons (.var (name% "adder")) .nil))))
                  .skip)))
               .skip)))))
            .skip))))))
        (.seq (.ret (.var (name% "result")))
        .skip)))))
       (.block
        (.seq (.ret (.make (.str (.prim .char)) .nil))
        .skip))))))
  .skip)

/-- `source/string_tolower.cxx:63-85`. -/
def isTurkicLang_8_body : Stmt :=
  (.seq (.ite (.bin .or (.bin .or (.bin .eq (.var (name% "lang")) .null) (.bin .eq (.index (.var (name% "lang")) (.num 0)) (.chr 0))) (.bin .eq (.index (.var (name% "lang")) (.num 1)) (.chr 0)))
    (.block
     (.seq (.ret (.bool false))
     .skip))
    .skip)
  (.seq (.ite (.bin .eq (.index (.var (name% "lang")) (.num 2)) (.chr 0))
    (.block
     (.seq (.ret (.bin .or (.bin .or (.bin .or (.bin .and (.bin .eq (.index (.var (name% "lang")) (.num 0)) (.chr 116)) (.bin .eq (.index (.var (name% "lang")) (.num 1)) (.chr 114))) (.bin .and (.bin .eq (.index (.var (name% "lang")) (.num 0)) (.chr 97)) (.bin .eq (.index (.var (name% "lang")) (.num 1)) (.chr 122)))) (.bin .and (.bin .eq (.index (.var (name% "lang")) (.num 0)) (.chr 116)) (.bin .eq (.index (.var (name% "lang")) (.num 1)) (.chr 116)))) (.bin .and (.bin .eq (.index (.var (name% "lang")) (.num 0)) (.chr 107)) (.bin .eq (.index (.var (name% "lang")) (.num 1)) (.chr 107)))))
     .skip))
    .skip)
  (.seq (.ite (.bin .eq (.index (.var (name% "lang")) (.num 3)) (.chr 0))
    (.block
     (.seq (.ret (.bin .or (.bin .or (.bin .or (.bin .and (.bin .and (.bin .eq (.index (.var (name% "lang")) (.num 0)) (.chr 116)) (.bin .eq (.index (.var (name% "lang")) (.num 1)) (.chr 117))) (.bin .eq (.index (.var (name% "lang")) (.num 2)) (.chr 114))) (.bin .and (.bin .and (.bin .eq (.index (.var (name% "lang")) (.num 0)) (.chr 116)) (.bin .eq (.index (.var (name% "lang")) (.num 1)) (.chr 97))) (.bin .eq (.index (.var (name% "lang")) (.num 2)) (.chr 116)))) (.bin .and (.bin .and (.bin .eq (.index (.var (name% "lang")) (.num 0)) (.chr 107)) (.bin .eq (.index (.var (name% "lang")) (.num 1)) (.chr 97))) (.bin .eq (.index (.var (name% "lang")) (.num 2)) (.chr 122)))) (.bin .and (.bin .and (.bin .eq (.index (.var (name% "lang")) (.num 0)) (.chr 97)) (.bin .eq (.index (.var (name% "lang")) (.num 1)) (.chr 122))) (.bin .or (.bin .or (.bin .eq (.index (.var (name% "lang")) (.num 2)) (.chr 101)) (.bin .eq (.index (.var (name% "lang")) (.num 2)) (.chr 98))) (.bin .eq (.index (.var (name% "lang")) (.num 2)) (.chr 106))))))
     .skip))
    .skip)
  (.seq (.ret (.bool false))
  .skip))))

/-- `source/string_tolower.cxx:96-108`. -/
def toLower_S8_8_body : Stmt :=
  (.seq (.make (.str (.prim .c32)) (name% "src4") (.cons (.call (name% "toUcs4") (.cons (.var (name% "src")) .nil)) .nil))
  (.seq (.ite (.method (name% "src4") (name% "empty") .nil)
    (.block
     (.seq (.ret (.make (.str (.prim .char)) .nil))
     .skip))
    .skip)
  (.seq (.ret (.call (name% "toUtf8") (.cons (.call (name% "toLower") (.cons (.var (name% "src4")) (.cons (.var (name% "lang")) .nil))) .nil)))
  .skip)))

/-- `source/string_tolower.cxx:112-124`. -/
def toLower_S16_8_body : Stmt :=
  (.seq (.make (.str (.prim .c32)) (name% "src4") (.cons (.call (name% "toUcs4") (.cons (.var (name% "src")) .nil)) .nil))
  (.seq (.ite (.method (name% "src4") (name% "empty") .nil)
    (.block
     (.seq (.ret (.make (.str (.prim .c16)) .nil))
     .skip))
    .skip)
  (.seq (.ret (.call (name% "toUtf16") (.cons (.call (name% "toLower") (.cons (.var (name% "src4")) (.cons (.var (name% "lang")) .nil))) .nil)))
  .skip)))

/-- `source/string_tolower.cxx:128-145`. -/
def toLower_S32_8_body : Stmt :=
  (.seq (.decl .auto (name% "toLowerFunc") (.cond (.call (name% "isTurkicLang") (.cons (.var (name% "lang")) .nil)) (.var (name% "turkicToLower")) (.var (name% "toLower"))))
  (.seq (.make (.str (.prim .c32)) (name% "result") .nil)
  (.seq (.make (.adder (.prim .c32)) (name% "adder") (.cons (.var (name% "result")) .nil))
  (.seq (.forIn (name% "c") (name% "src")
    (.block
     (.seq (.expr (.call (name% "adder") (.cons (.call (name% "toLowerFunc") (.cons (.var (name% "c")) .nil)) .nil)))
     .skip)))
  (.seq (.ret (.var (name% "result")))
  .skip)))))

/-- `interface/string_trim.hxx:51-64`. -/
def trim_V_body : Stmt :=
  (.seq .skip
  (.seq (.loop (.bin .and (.not (.method (name% "victim") (name% "empty") .nil)) (.bin .eq (.index (.var (name% "victim")) (.bin .sub (.method (name% "victim") (name% "size") .nil) (.num 1))) (.cast .param (.chr 32)))) .skip
    (.block
     (.seq (.expr (.method (name% "victim") (name% "erase") (.cons (.bin .sub (.method (name% "victim") (name% "size") .nil) (.num 1)) .nil)))
     .skip)))
  (.seq (.loop (.bin .and (.not (.method (name% "victim") (name% "empty") .nil)) (.bin .eq (.index (.var (name% "victim")) (.num 0)) (.cast .param (.chr 32)))) .skip
    (.block
     (.seq (.expr (.method (name% "victim") (name% "erase") (.cons (.num 0) (.cons (.num 1) .nil))))
     .skip)))
  .skip)))

/-- `interface/string_trim.hxx:66-80`. -/
def trim_V_S_body : Stmt :=
  (.seq .skip
  (.seq (.loop (.bin .and (.not (.method (name% "victim") (name% "empty") .nil)) (.bin .ne (.method (name% "spaces") (name% "find_first_of") (.cons (.index (.var (name% "victim")) (.bin .sub (.method (name% "victim") (name% "size") .nil) (.num 1))) .nil)) .npos)) .skip
    (.block
     (.seq (.expr (.method (name% "victim") (name% "erase") (.cons (.bin .sub (.method (name% "victim") (name% "size") .nil) (.num 1)) .nil)))
     .skip)))
  (.seq (.loop (.bin .and (.not (.method (name% "victim") (name% "empty") .nil)) (.bin .ne (.method (name% "spaces") (name% "find_first_of") (.cons (.index (.var (name% "victim")) (.num 0)) .nil)) .npos)) .skip
    (.block
     (.seq (.expr (.method (name% "victim") (name% "erase") (.cons (.num 0) (.cons (.num 1) .nil))))
     .skip)))
  .skip)))

/-- `interface/string_trim.hxx:82-85`. -/
def trimAscii7WhiteSpace_S8_body : Stmt :=
  (.seq (.expr (.call (name% "trim") (.cons (.var (name% "victim")) (.cons (.make (.str (.prim .char)) (.cons (.lit .char [9, 10, 13, 32]) .nil)) .nil))))
  .skip)

/-- `interface/string_trim.hxx:87-93`. -/
def trimWhiteSpace_S32_body : Stmt :=
  (.seq (.expr (.call (name% "trim") (.cons (.var (name% "victim")) (.cons (.make (.str (.prim .c32)) (.cons (.lit .c32 [9, 10, 13, 32, 160, 8192, 8193, 8194, 8195, 8196, 8197, 8198, 8199, 8200, 8201, 8202, 8239, 8287, 12288]) .nil)) .nil))))
  .skip)

/-- `interface/string_trim.hxx:95-100`. -/
def trimWhiteSpace_S16_body : Stmt :=
  (.seq (.expr (.call (name% "trim") (.cons (.var (name% "victim")) (.cons (.make (.str (.prim .c16)) (.cons (.lit .c16 [9, 10, 13, 32, 160, 8192, 8193, 8194, 8195, 8196, 8197, 8198, 8199, 8200, 8201, 8202, 8239, 8287, 12288]) .nil)) .nil))))
  .skip)

/-- `interface/string_trim.hxx:102-107`. -/
def trimWhiteSpace_S8_body : Stmt :=
  (.seq (.decl .auto (name% "v16") (.call (name% "toUtf16") (.cons (.var (name% "victim")) .nil)))
  (.seq (.expr (.call (name% "trimWhiteSpace") (.cons (.var (name% "v16")) .nil)))
  (.seq (.expr (.set (name% "victim") (.call (name% "toUtf8") (.cons (.var (name% "v16")) .nil))))
  .skip)))

/-- `interface/string_splitjoin.hxx:59-109`. -/
def split_S_body : Stmt :=
  (.seq .skip
  (.seq (.typedef (.str .param) (name% "elem_type"))
  (.seq (.typedef (.prim .ulong) (name% "size_type"))
  (.seq (.typedef (.vec (.named (name% "elem_type"))) (name% "return_type"))
  (.seq (.ite (.method (name% "src") (name% "empty") .nil)
    (.block
     (.seq (.ret (.call (name% "return_type") .nil))
     .skip))
    .skip)
  (.seq (.decl .auto (name% "npos") .npos)
  (.seq (.decl (.named (name% "size_type")) (name% "n") (.method (name% "src") (name% "find") (.cons (.var (name% "delim")) .nil)))
  (.seq (.ite (.bin .eq (.var (name% "n")) (.var (name% "npos")))
    (.block
     (.seq (.make (.named (name% "return_type")) (name% "result") .nil)
     (.seq (.expr (.method (name% "result") (name% "push_back") (.cons (.var (name% "src")) .nil)))
     (.seq (.ret (.var (name% "result")))
     .skip))))
    (.block
     (.seq (.make (.list (.named (name% "size_type"))) (name% "breaks") .nil)
     (.seq (.doWhile (.bin .ne (.var (name% "n")) (.var (name% "npos")))
       (.block
        (.seq (.expr (.method (name% "breaks") (name% "push_back") (.cons (.var (name% "n")) .nil)))
        (.seq (.expr (.set (name% "n") (.method (name% "src") (name% "find") (.cons (.var (name% "delim")) (.cons (.bin .add (.var (name% "n")) (.num 1)) .nil)))))
        .skip))))
     (.seq (.make (.named (name% "return_type")) (name% "result") (.cons (.bin .add (.method (name% "breaks") (name% "size") .nil) (.num 1)) .nil))
     (.seq (.decl (.prim .int) (name% "iResX") (.num 0))
     (.seq (.expr (.setAt (name% "result") (.postIncr (name% "iResX")) (.method (name% "src") (name% "substr") (.cons (.num 0) (.cons (.deref (.method (name% "breaks") (name% "begin") .nil)) .nil)))))
     (.seq (.block
       (.seq (.decl .auto (name% "iBreak") (.method (name% "breaks") (name% "begin") .nil))
       (.loop (.bin .ne (.var (name% "iBreak")) (.method (name% "breaks") (name% "end") .nil)) (.expr (.incr (name% "iBreak")))
        (.block
         (.seq (.decl .auto (name% "nStart") (.bin .add (.deref (.var (name% "iBreak"))) (.num 1)))
         (.seq (.decl .auto (name% "nextBreak") (.var (name% "iBreak")))
         (.seq (.expr (.incr (name% "nextBreak")))
         (.seq (.ite (.bin .eq (.var (name% "nextBreak")) (.method (name% "breaks") (name% "end") .nil))
           (.block
            (.seq (.expr (.setAt (name% "result") (.var (name% "iResX")) (.method (name% "src") (name% "substr") (.cons (.var (name% "nStart")) .nil))))
            .skip))
           (.block
            (.seq (.expr (.setAt (name% "result") (.postIncr (name% "iResX")) (.method (name% "src") (name% "substr") (.cons (.var (name% "nStart")) (.cons (.bin .sub (.deref (.var (name% "nextBreak"))) (.var (name% "nStart"))) .nil)))))
            .skip)))
         .skip))))))))
     (.seq (.ret (.var (name% "result")))
     .skip)))))))))
  .skip))))))))

/-- `interface/string_splitjoin.hxx:116-145`. -/
def join_body : Stmt :=
  (.seq .skip
  (.seq (.typedef (.str .param) (name% "return_type"))
  (.seq (.ite (.method (name% "src") (name% "empty") .nil)
    (.block
     (.seq (.ret (.call (name% "return_type") .nil))
     .skip))
    (.block
     (.seq (.arrayOf .param (name% "delimStr") 2 (.cons (.num 0) .nil))
     (.seq (.expr (.setAt (name% "delimStr") (.num 0) (.var (name% "delim"))))
     (.seq (.make (.named (name% "return_type")) (name% "r") .nil)
     (.seq (.decl (.prim .bool) (name% "first") (.bool true))
     (.seq (.forIn (name% "s") (name% "src")
       (.block
        (.seq (.ite (.not (.var (name% "first")))
          (.block
           (.seq (.expr (.method (name% "r") (name% "append") (.cons (.var (name% "delimStr")) .nil)))
           .skip))
          .skip)
        (.seq (.expr (.set (name% "first") (.bool false)))
        (.seq (.expr (.method (name% "r") (name% "append") (.cons (.var (name% "s")) .nil)))
        .skip)))))
     (.seq (.ret (.var (name% "r")))
     .skip))))))))
  .skip)))

/-- `interface/string.hxx:1-84`. -/
def items0 : List Item :=
  [.enum (name% "RangeType") [((name% "kAscii"), none), ((name% "kUtf8"), none), ((name% "kUcs2"), none), ((name% "kUtf16"), none), ((name% "kUcs4"), none), ((name% "kUnicode"), none), ((name% "kFirstInvalidRange"), none)]]

/-- `interface/string.hxx:85-163`. -/
def items1 : List Item :=
  [.enum (name% "EncodingType") [((name% "kIsNone"), none), ((name% "kIsAssigned"), none), ((name% "kIsPrivate"), none), ((name% "kIsControl"), none), ((name% "kIsWhitespace"), none), ((name% "kFirstInvalidEncoding"), none)],
   .func ⟨(name% "EncodingCheckPredicate"), (name% "EncodingCheckPredicate"), (.cls (name% "EncodingCheckPredicate")), [⟨(.prim (.enum (name% "EncodingType"))), (name% "t"), none⟩, ⟨(.prim .bool), (name% "checkForIt"), (some (.bool true))⟩], [], none⟩,
   .func ⟨(name% "EncodingCheckPredicate"), (name% "EncodingCheckPredicate"), (.cls (name% "EncodingCheckPredicate")), [], [((name% "m_mask"), (.num 0)), ((name% "m_value"), (.num 0))], (some construct_body)⟩,
   .func ⟨(nat_lit 0), (name% "checkIf"), (.cls (name% "EncodingCheckPredicate")), [⟨(.prim (.enum (name% "EncodingType"))), (name% "toCheckFor"), none⟩], [], (some checkIf_E_body)⟩,
   .func ⟨(nat_lit 0), (name% "checkIfNot"), (.cls (name% "EncodingCheckPredicate")), [⟨(.prim (.enum (name% "EncodingType"))), (name% "toCheckFor"), none⟩], [], (some checkIfNot_E_body)⟩,
   .func ⟨(name% "EncodingCheckPredicate"), (name% "andIf"), (.cls (name% "EncodingCheckPredicate")), [⟨(.prim (.enum (name% "EncodingType"))), (name% "toCheckFor"), none⟩], [], none⟩,
   .func ⟨(name% "EncodingCheckPredicate"), (name% "andIfNot"), (.cls (name% "EncodingCheckPredicate")), [⟨(.prim (.enum (name% "EncodingType"))), (name% "toCheckFor"), none⟩], [], none⟩,
   .func ⟨(name% "EncodingCheckPredicate"), (name% "operator=="), (.prim .bool), [⟨(.cls (name% "EncodingCheckPredicate")), (name% "other"), none⟩], [], none⟩,
   .func ⟨(name% "EncodingCheckPredicate"), (name% "operator!="), (.prim .bool), [⟨(.cls (name% "EncodingCheckPredicate")), (name% "other"), none⟩], [], (some differs_Pred_body)⟩,
   .func ⟨(name% "EncodingCheckPredicate"), (name% "operator()"), (.prim .bool), [⟨(.prim .char), (name% "c"), none⟩], [], none⟩,
   .func ⟨(name% "EncodingCheckPredicate"), (name% "operator()"), (.prim .bool), [⟨(.prim .c16), (name% "c"), none⟩], [], none⟩,
   .func ⟨(name% "EncodingCheckPredicate"), (name% "operator()"), (.prim .bool), [⟨(.prim .c32), (name% "c"), none⟩], [], none⟩,
   .field (name% "EncodingCheckPredicate") (.prim .uint) (name% "m_mask"),
   .field (name% "EncodingCheckPredicate") (.prim .uint) (name% "m_value")]

/-- `interface/string.hxx:164-213`. -/
def items2 : List Item :=
  [.func ⟨(nat_lit 0), (name% "validIf"), (.cls (name% "EncodingCheckPredicate")), [⟨(.prim (.enum (name% "EncodingType"))), (name% "toCheckFor"), none⟩], [], (some validIf_E_body)⟩,
   .func ⟨(nat_lit 0), (name% "validIfNot"), (.cls (name% "EncodingCheckPredicate")), [⟨(.prim (.enum (name% "EncodingType"))), (name% "toCheckFor"), none⟩], [], (some validIfNot_E_body)⟩,
   .enum (name% "SourceEncoding") [((name% "kSrcUnicode"), none), ((name% "kSrcCP1252"), none), ((name% "kSrcCP1250"), none)]]

/-- `interface/string.hxx:214-251`. -/
def items3 : List Item :=
  [.func ⟨(nat_lit 0), (name% "getUnicodeVersionSupported"), (.str (.prim .char)), [], [], none⟩,
   .func ⟨(nat_lit 0), (name% "isUtf8"), (.prim .bool), [⟨(.str (.prim .char)), (name% "test"), none⟩, ⟨(.prim (.enum (name% "RangeType"))), (name% "targetRange"), (some (.var (name% "kUtf8")))⟩, ⟨(.cls (name% "EncodingCheckPredicate")), (name% "pred"), (some (.make (.cls (name% "EncodingCheckPredicate")) .nil))⟩], [], none⟩]

/-- `interface/string.hxx:252-350`. -/
def items4 : List Item :=
  [.func ⟨(nat_lit 0), (name% "isUtf8"), (.prim .bool), [⟨(.str (.prim .char)), (name% "test"), none⟩, ⟨(.cls (name% "EncodingCheckPredicate")), (name% "pred"), none⟩], [], (some isUtf8_S8_Pred_body)⟩,
   .func ⟨(nat_lit 0), (name% "isUtf8"), (.prim .bool), [⟨(.ptr (.prim .char)), (name% "test"), none⟩, ⟨(.prim (.enum (name% "RangeType"))), (name% "targetRange"), (some (.var (name% "kUtf8")))⟩, ⟨(.cls (name% "EncodingCheckPredicate")), (name% "pred"), (some (.make (.cls (name% "EncodingCheckPredicate")) .nil))⟩], [], none⟩,
   .func ⟨(nat_lit 0), (name% "isUtf8"), (.prim .bool), [⟨(.ptr (.prim .char)), (name% "test"), none⟩, ⟨(.cls (name% "EncodingCheckPredicate")), (name% "pred"), none⟩], [], (some isUtf8_8_Pred_body)⟩,
   .func ⟨(nat_lit 0), (name% "isUtf8"), (.prim .bool), [⟨(.ptr (.prim .char)), (name% "test"), none⟩, ⟨(.prim .uint), (name% "testLength"), none⟩, ⟨(.cls (name% "EncodingCheckPredicate")), (name% "pred"), (some (.make (.cls (name% "EncodingCheckPredicate")) .nil))⟩], [], none⟩,
   .func ⟨(nat_lit 0), (name% "isUtf16"), (.prim .bool), [⟨(.str (.prim .c16)), (name% "test"), none⟩, ⟨(.prim (.enum (name% "RangeType"))), (name% "targetRange"), (some (.var (name% "kUtf16")))⟩, ⟨(.cls (name% "EncodingCheckPredicate")), (name% "pred"), (some (.make (.cls (name% "EncodingCheckPredicate")) .nil))⟩], [], none⟩,
   .func ⟨(nat_lit 0), (name% "isUtf16"), (.prim .bool), [⟨(.ptr (.prim .c16)), (name% "test"), none⟩, ⟨(.prim (.enum (name% "RangeType"))), (name% "targetRange"), (some (.var (name% "kUtf16")))⟩, ⟨(.cls (name% "EncodingCheckPredicate")), (name% "pred"), (some (.make (.cls (name% "EncodingCheckPredicate")) .nil))⟩], [], none⟩,
   .func ⟨(nat_lit 0), (name% "isUtf16"), (.prim .bool), [⟨(.str (.prim .c16)), (name% "test"), none⟩, ⟨(.cls (name% "EncodingCheckPredicate")), (name% "pred"), none⟩], [], (some isUtf16_S16_Pred_body)⟩,
   .func ⟨(nat_lit 0), (name% "isUtf16"), (.prim .bool), [⟨(.ptr (.prim .c16)), (name% "test"), none⟩, ⟨(.cls (name% "EncodingCheckPredicate")), (name% "pred"), none⟩], [], (some isUtf16_16_Pred_body)⟩,
   .func ⟨(nat_lit 0), (name% "isUcs2"), (.prim .bool), [⟨(.str (.prim .c16)), (name% "test"), none⟩, ⟨(.prim (.enum (name% "RangeType"))), (name% "targetRange"), (some (.var (name% "kUcs2")))⟩, ⟨(.cls (name% "EncodingCheckPredicate")), (name% "pred"), (some (.make (.cls (name% "EncodingCheckPredicate")) .nil))⟩], [], none⟩,
   .func ⟨(nat_lit 0), (name% "isUcs2"), (.prim .bool), [⟨(.ptr (.prim .c16)), (name% "test"), none⟩, ⟨(.prim (.enum (name% "RangeType"))), (name% "targetRange"), (some (.var (name% "kUcs2")))⟩, ⟨(.cls (name% "EncodingCheckPredicate")), (name% "pred"), (some (.make (.cls (name% "EncodingCheckPredicate")) .nil))⟩], [], none⟩,
   .func ⟨(nat_lit 0), (name% "isUcs2"), (.prim .bool), [⟨(.str (.prim .c16)), (name% "test"), none⟩, ⟨(.cls (name% "EncodingCheckPredicate")), (name% "pred"), none⟩], [], (some isUcs2_S16_Pred_body)⟩,
   .func ⟨(nat_lit 0), (name% "isUcs2"), (.prim .bool), [⟨(.ptr (.prim .c16)), (name% "test"), none⟩, ⟨(.cls (name% "EncodingCheckPredicate")), (name% "pred"), none⟩], [], (some isUcs2_16_Pred_body)⟩,
   .func ⟨(nat_lit 0), (name% "isUcs4"), (.prim .bool), [⟨(.str (.prim .c32)), (name% "test"), none⟩, ⟨(.prim (.enum (name% "RangeType"))), (name% "targetRange"), (some (.var (name% "kUcs4")))⟩, ⟨(.cls (name% "EncodingCheckPredicate")), (name% "pred"), (some (.make (.cls (name% "EncodingCheckPredicate")) .nil))⟩], [], none⟩,
   .func ⟨(nat_lit 0), (name% "isUcs4"), (.prim .bool), [⟨(.ptr (.prim .c32)), (name% "test"), none⟩, ⟨(.prim (.enum (name% "RangeType"))), (name% "targetRange"), (some (.var (name% "kUcs4")))⟩, ⟨(.cls (name% "EncodingCheckPredicate")), (name% "pred"), (some (.make (.cls (name% "EncodingCheckPredicate")) .nil))⟩], [], none⟩,
   .func ⟨(nat_lit 0), (name% "isUcs4"), (.prim .bool), [⟨(.str (.prim .c32)), (name% "test"), none⟩, ⟨(.cls (name% "EncodingCheckPredicate")), (name% "pred"), none⟩], [], (some isUcs4_S32_Pred_body)⟩,
   .func ⟨(nat_lit 0), (name% "isUcs4"), (.prim .bool), [⟨(.ptr (.prim .c32)), (name% "test"), none⟩, ⟨(.cls (name% "EncodingCheckPredicate")), (name% "pred"), none⟩], [], (some isUcs4_32_Pred_body)⟩,
   .func ⟨(nat_lit 0), (name% "toUtf8"), (.str (.prim .char)), [⟨(.str (.prim .c16)), (name% "src"), none⟩], [], none⟩]

/-- `interface/string.hxx:351-401`. -/
def items5 : List Item :=
  [.func ⟨(nat_lit 0), (name% "toUtf8"), (.str (.prim .char)), [⟨(.ptr (.prim .c16)), (name% "src"), none⟩], [], none⟩,
   .func ⟨(nat_lit 0), (name% "toUtf8"), (.str (.prim .char)), [⟨(.str (.prim .c32)), (name% "src"), none⟩], [], none⟩,
   .func ⟨(nat_lit 0), (name% "toUtf8"), (.str (.prim .char)), [⟨(.ptr (.prim .c32)), (name% "src"), none⟩], [], none⟩,
   .func ⟨(nat_lit 0), (name% "toUcs2"), (.str (.prim .c16)), [⟨(.str (.prim .char)), (name% "src"), none⟩], [], none⟩,
   .func ⟨(nat_lit 0), (name% "toUcs2"), (.str (.prim .c16)), [⟨(.ptr (.prim .char)), (name% "src"), none⟩], [], none⟩,
   .func ⟨(nat_lit 0), (name% "toUcs2"), (.str (.prim .c16)), [⟨(.str (.prim .c32)), (name% "src"), none⟩], [], none⟩,
   .func ⟨(nat_lit 0), (name% "toUcs2"), (.str (.prim .c16)), [⟨(.ptr (.prim .c32)), (name% "src"), none⟩], [], none⟩,
   .func ⟨(nat_lit 0), (name% "toUtf16"), (.str (.prim .c16)), [⟨(.str (.prim .char)), (name% "src"), none⟩], [], none⟩,
   .func ⟨(nat_lit 0), (name% "toUtf16"), (.str (.prim .c16)), [⟨(.ptr (.prim .char)), (name% "src"), none⟩], [], none⟩,
   .func ⟨(nat_lit 0), (name% "toUtf16"), (.str (.prim .c16)), [⟨(.str (.prim .c32)), (name% "src"), none⟩], [], none⟩,
   .func ⟨(nat_lit 0), (name% "toUtf16"), (.str (.prim .c16)), [⟨(.ptr (.prim .c32)), (name% "src"), none⟩], [], none⟩,
   .func ⟨(nat_lit 0), (name% "toUcs4"), (.str (.prim .c32)), [⟨(.str (.prim .char)), (name% "src"), none⟩], [], none⟩,
   .func ⟨(nat_lit 0), (name% "toUcs4"), (.str (.prim .c32)), [⟨(.ptr (.prim .char)), (name% "src"), none⟩], [], none⟩,
   .func ⟨(nat_lit 0), (name% "toUcs4"), (.str (.prim .c32)), [⟨(.str (.prim .c16)), (name% "src"), none⟩], [], none⟩,
   .func ⟨(nat_lit 0), (name% "toUcs4"), (.str (.prim .c32)), [⟨(.ptr (.prim .c16)), (name% "src"), none⟩], [], none⟩,
   .func ⟨(nat_lit 0), (name% "unicodeLength"), (.prim .uint), [⟨(.str (.prim .char)), (name% "src"), none⟩], [], none⟩,
   .func ⟨(nat_lit 0), (name% "unicodeLength"), (.prim .uint), [⟨(.ptr (.prim .char)), (name% "src"), none⟩, ⟨(.prim .uint), (name% "textLength"), (some (.num 0))⟩], [], none⟩]

/-- `interface/string.hxx:402-439`. -/
def items6 : List Item :=
  [.func ⟨(nat_lit 0), (name% "unicodeLength"), (.prim .uint), [⟨(.str (.prim .c16)), (name% "src"), none⟩], [], none⟩,
   .func ⟨(nat_lit 0), (name% "unicodeLength"), (.prim .uint), [⟨(.ptr (.prim .c16)), (name% "src"), none⟩, ⟨(.prim .uint), (name% "testLength"), (some (.num 0))⟩], [], none⟩,
   .func ⟨(nat_lit 0), (name% "unicodeLength"), (.prim .uint), [⟨(.str (.prim .c32)), (name% "src"), none⟩], [], none⟩,
   .func ⟨(nat_lit 0), (name% "unicodeLength"), (.prim .uint), [⟨(.ptr (.prim .c32)), (name% "src"), none⟩, ⟨(.prim .uint), (name% "testLength"), (some (.num 0))⟩], [], none⟩,
   .func ⟨(nat_lit 0), (name% "toLower"), (.str (.prim .char)), [⟨(.str (.prim .char)), (name% "src"), none⟩, ⟨(.ptr (.prim .char)), (name% "lang"), (some .null)⟩], [], none⟩]

/-- `interface/string.hxx:440-472`. -/
def items7 : List Item :=
  [.func ⟨(nat_lit 0), (name% "toLower"), (.str (.prim .c16)), [⟨(.str (.prim .c16)), (name% "src"), none⟩, ⟨(.ptr (.prim .char)), (name% "lang"), (some .null)⟩], [], none⟩,
   .func ⟨(nat_lit 0), (name% "toLower"), (.str (.prim .c32)), [⟨(.str (.prim .c32)), (name% "src"), none⟩, ⟨(.ptr (.prim .char)), (name% "lang"), (some .null)⟩], [], none⟩]

/-- `interface/string.hxx:1016-1028`. -/
def items8 : List Item :=
  [.func ⟨(nat_lit 0), (name% "toUtf8"), (.str (.prim .char)), [⟨(.ptr (.prim .char)), (name% "src"), none⟩, ⟨(.prim (.enum (name% "SourceEncoding"))), (name% "srcType"), none⟩], [], none⟩]

/-- `interface/internal/string_decode_utf8.hxx:1-79`. -/
def items9 : List Item :=
  [.func ⟨(nat_lit 0), (name% "decodeUtf8"), (.prim .c32), [⟨(.ref (.ptr (.prim .char))), (name% "p"), none⟩], [], none⟩]

/-- `interface/internal/string_decode_utf8.hxx:80-83`. -/
def items10 : List Item :=
  []

/-- `source/string_internal.hxx:1-76`. -/
def items11 : List Item :=
  [.enum (name% "RangeTypeFlags") [((name% "kNoFlag"), (some (.num 0))), ((name% "kAsciiFlag"), (some (.num 1))), ((name% "kUtf8Flag"), (some (.num 2))), ((name% "kUcs2Flag"), (some (.num 4))), ((name% "kUtf16Flag"), (some (.num 8))), ((name% "kUcs4Flag"), (some (.num 16))), ((name% "kUnicodeFlag"), (some (.num 32))), ((name% "kInvalidRangeFlag"), (some (.num 32768))), ((name% "k7BitFlags"), (some (.bin .bitOr (.bin .bitOr (.bin .bitOr (.bin .bitOr (.bin .bitOr (.var (name% "kAsciiFlag")) (.var (name% "kUtf8Flag"))) (.var (name% "kUcs2Flag"))) (.var (name% "kUtf16Flag"))) (.var (name% "kUcs4Flag"))) (.var (name% "kUnicodeFlag"))))), ((name% "k16BitFlags"), (some (.bin .bitOr (.bin .bitOr (.bin .bitOr (.bin .bitOr (.var (name% "kUtf8Flag")) (.var (name% "kUcs2Flag"))) (.var (name% "kUtf16Flag"))) (.var (name% "kUcs4Flag"))) (.var (name% "kUnicodeFlag"))))), ((name% "k21BitFlags"), (some (.bin .bitOr (.bin .bitOr (.var (name% "kUtf8Flag")) (.var (name% "kUtf16Flag"))) (.var (name% "kUcs4Flag"))))), ((name% "k21BitUnicodeFlags"), (some (.bin .bitOr (.var (name% "k21BitFlags")) (.var (name% "kUnicodeFlag"))))), ((name% "k31BitFlags"), (some (.bin .bitOr (.var (name% "kUtf8Flag")) (.var (name% "kUcs4Flag"))))), ((name% "k32BitFlags"), (some (.var (name% "kUcs4Flag"))))]]

/-- `source/string_internal.hxx:77-147`. -/
def items12 : List Item :=
  [.enum (name% "EncodingTypeFlags") [((name% "kNoneFlag"), (some (.num 0))), ((name% "kIsAssignedFlag"), (some (.num 1))), ((name% "kIsPrivateFlag"), (some (.num 2))), ((name% "kIsControlFlag"), (some (.num 4))), ((name% "kIsWhiteSpaceFlag"), (some (.num 8)))],
   .extern (.str (.prim .char)) (name% "supportedUnicodeVersion"),
   .func ⟨(nat_lit 0), (name% "isUnicodeAssigned"), (.prim .bool), [⟨(.prim .char), (nat_lit 0), none⟩], [], (some isUnicodeAssigned_8_body)⟩,
   .func ⟨(nat_lit 0), (name% "isUnicodeAssigned"), (.prim .bool), [⟨(.prim .c16), (name% "c"), none⟩], [], none⟩,
   .func ⟨(nat_lit 0), (name% "isUnicodeAssigned"), (.prim .bool), [⟨(.prim .c32), (name% "c"), none⟩], [], none⟩,
   .func ⟨(nat_lit 0), (name% "isUnicodePrivate"), (.prim .bool), [⟨(.prim .char), (nat_lit 0), none⟩], [], (some isUnicodePrivate_8_body)⟩,
   .func ⟨(nat_lit 0), (name% "isUnicodePrivate"), (.prim .bool), [⟨(.prim .c16), (name% "c"), none⟩], [], none⟩,
   .func ⟨(nat_lit 0), (name% "isUnicodePrivate"), (.prim .bool), [⟨(.prim .c32), (name% "c"), none⟩], [], none⟩,
   .func ⟨(nat_lit 0), (name% "isControlChar"), (.prim .bool), [⟨(.prim .char), (name% "c"), none⟩], [], none⟩,
   .func ⟨(nat_lit 0), (name% "isControlChar"), (.prim .bool), [⟨(.prim .c16), (name% "c"), none⟩], [], none⟩,
   .func ⟨(nat_lit 0), (name% "isControlChar"), (.prim .bool), [⟨(.prim .c32), (name% "c"), none⟩], [], none⟩,
   .func ⟨(nat_lit 0), (name% "isWhitespaceChar"), (.prim .bool), [⟨(.prim .char), (name% "c"), none⟩], [], none⟩,
   .func ⟨(nat_lit 0), (name% "isWhitespaceChar"), (.prim .bool), [⟨(.prim .c16), (name% "c"), none⟩], [], none⟩,
   .func ⟨(nat_lit 0), (name% "isWhitespaceChar"), (.prim .bool), [⟨(.prim .c32), (name% "c"), none⟩], [], none⟩,
   .func ⟨(nat_lit 0), (name% "getUnicodeEncodableRangeFlag"), (.prim (.enum (name% "RangeTypeFlags"))), [⟨.param, (name% "c"), none⟩], [], (some getUnicodeEncodableRangeFlag_body)⟩]

/-- `source/string_internal.hxx:148-217`. -/
def items13 : List Item :=
  [.func ⟨(nat_lit 0), (name% "getCharEncodableRangeFlags"), (.prim (.enum (name% "RangeTypeFlags"))), [⟨.param, (name% "c"), none⟩], [], (some getCharEncodableRangeFlags_body)⟩,
   .func ⟨(nat_lit 0), (name% "getRangeFlag"), (.prim (.enum (name% "RangeTypeFlags"))), [⟨(.prim .char), (name% "firstChar"), none⟩], [], (some getRangeFlag_8_body)⟩]

/-- `source/string_internal.hxx:218-271`. -/
def items14 : List Item :=
  [.func ⟨(nat_lit 0), (name% "getRangeFlag"), (.prim (.enum (name% "RangeTypeFlags"))), [⟨(.prim .c16), (name% "firstChar"), none⟩], [], (some getRangeFlag_16_body)⟩,
   .func ⟨(nat_lit 0), (name% "charToEncodingTypeMask"), (.prim .uint), [⟨.param, (name% "c"), none⟩], [], (some charToEncodingTypeMask_body)⟩,
   .func ⟨(nat_lit 0), (name% "isFirstHalfUtf16"), (.prim .bool), [⟨.param, (name% "c"), none⟩], [], (some isFirstHalfUtf16_body)⟩]

/-- `source/string_internal.hxx:272-318`. -/
def items15 : List Item :=
  [.func ⟨(nat_lit 0), (name% "isSecondHalfUtf16"), (.prim .bool), [⟨.param, (name% "c"), none⟩], [], (some isSecondHalfUtf16_body)⟩,
   .func ⟨(nat_lit 0), (name% "rawDecodeUtf8"), (.prim .c16), [⟨(.prim .char), (name% "c0"), none⟩, ⟨(.prim .char), (name% "c1"), none⟩], [], (some rawDecodeUtf8_8_8_body)⟩,
   .func ⟨(nat_lit 0), (name% "rawDecodeUtf8"), (.prim .c16), [⟨(.prim .char), (name% "c0"), none⟩, ⟨(.prim .char), (name% "c1"), none⟩, ⟨(.prim .char), (name% "c2"), none⟩], [], (some rawDecodeUtf8_8_8_8_body)⟩,
   .func ⟨(nat_lit 0), (name% "rawDecodeUtf8"), (.prim .c32), [⟨(.prim .char), (name% "c0"), none⟩, ⟨(.prim .char), (name% "c1"), none⟩, ⟨(.prim .char), (name% "c2"), none⟩, ⟨(.prim .char), (name% "c3"), none⟩], [], (some rawDecodeUtf8_8_8_8_8_body)⟩]

/-- `source/string_internal.hxx:319-402`. -/
def items16 : List Item :=
  [.func ⟨(nat_lit 0), (name% "rawDecodeUtf8"), (.prim .c32), [⟨(.prim .char), (name% "c0"), none⟩, ⟨(.prim .char), (name% "c1"), none⟩, ⟨(.prim .char), (name% "c2"), none⟩, ⟨(.prim .char), (name% "c3"), none⟩, ⟨(.prim .char), (name% "c4"), none⟩], [], (some rawDecodeUtf8_8_8_8_8_8_body)⟩,
   .func ⟨(nat_lit 0), (name% "rawDecodeUtf8"), (.prim .c32), [⟨(.prim .char), (name% "c0"), none⟩, ⟨(.prim .char), (name% "c1"), none⟩, ⟨(.prim .char), (name% "c2"), none⟩, ⟨(.prim .char), (name% "c3"), none⟩, ⟨(.prim .char), (name% "c4"), none⟩, ⟨(.prim .char), (name% "c5"), none⟩], [], (some rawDecodeUtf8_8_8_8_8_8_8_body)⟩,
   .func ⟨(nat_lit 0), (name% "encodeUtf8"), .void, [⟨.param, (name% "c"), none⟩, ⟨(.ref (.adder (.prim .char))), (name% "adder"), none⟩], [], (some encodeUtf8_body)⟩]

/-- `source/string_internal.hxx:403-456`. -/
def items17 : List Item :=
  [.func ⟨(nat_lit 0), (name% "rawDecodeUtf16"), (.prim .c32), [⟨(.prim .c16), (name% "c0"), none⟩, ⟨(.prim .c16), (name% "c1"), none⟩], [], (some rawDecodeUtf16_16_16_body)⟩,
   .func ⟨(nat_lit 0), (name% "rawEncodeUtf16"), .void, [⟨.param, (name% "c"), none⟩, ⟨(.adder (.prim .c16)), (name% "adder"), none⟩], [], (some rawEncodeUtf16_body)⟩,
   .func ⟨(nat_lit 0), (name% "turkicToLower"), (.prim .c32), [⟨(.prim .c32), (name% "c"), none⟩], [], none⟩,
   .func ⟨(nat_lit 0), (name% "toLower"), (.prim .c32), [⟨(.prim .c32), (name% "c"), none⟩], [], none⟩]

/-- `source/string_internal.hxx:457-458`. -/
def items18 : List Item :=
  []

/-- `source/string_decode_utf8.cxx:1-201`. -/
def items19 : List Item :=
  [.func ⟨(nat_lit 0), (name% "decodeUtf8"), (.prim .c32), [⟨(.ref (.ptr (.prim .char))), (name% "p"), none⟩], [], (some decodeUtf8_body)⟩]

/-- `source/string_decode_utf8.cxx:202-205`. -/
def items20 : List Item :=
  []

/-- `source/encoding_check_predicate.cxx:1-58`. -/
def items21 : List Item :=
  [.array (.prim (.enum (name% "EncodingTypeFlags"))) (name% "encodingTypeToEncodingFlag") (.var (name% "kFirstInvalidEncoding")) (.cons (.var (name% "kNoneFlag")) (.cons (.var (name% "kIsAssignedFlag")) (.cons (.var (name% "kIsPrivateFlag")) (.cons (.var (name% "kIsControlFlag")) (.cons (.var (name% "kIsWhiteSpaceFlag")) .nil)))))]

/-- `source/encoding_check_predicate.cxx:59-122`. -/
def items22 : List Item :=
  [.func ⟨(name% "EncodingCheckPredicate"), (name% "EncodingCheckPredicate"), (.cls (name% "EncodingCheckPredicate")), [⟨(.prim (.enum (name% "EncodingType"))), (name% "t"), none⟩, ⟨(.prim .bool), (name% "checkForIt"), none⟩], [((name% "m_mask"), (.num 0)), ((name% "m_value"), (.num 0))], (some construct_E_body)⟩,
   .func ⟨(name% "EncodingCheckPredicate"), (name% "andIf"), (.cls (name% "EncodingCheckPredicate")), [⟨(.prim (.enum (name% "EncodingType"))), (name% "toCheckFor"), none⟩], [], (some andIf_E_body)⟩,
   .func ⟨(name% "EncodingCheckPredicate"), (name% "andIfNot"), (.cls (name% "EncodingCheckPredicate")), [⟨(.prim (.enum (name% "EncodingType"))), (name% "toCheckFor"), none⟩], [], (some andIfNot_E_body)⟩,
   .func ⟨(name% "EncodingCheckPredicate"), (name% "operator=="), (.prim .bool), [⟨(.cls (name% "EncodingCheckPredicate")), (name% "other"), none⟩], [], (some equals_Pred_body)⟩]

/-- `source/encoding_check_predicate.cxx:123-163`. -/
def items23 : List Item :=
  [.func ⟨(name% "EncodingCheckPredicate"), (name% "operator()"), (.prim .bool), [⟨(.prim .char), (name% "c"), none⟩], [], (some apply_8_body)⟩,
   .func ⟨(name% "EncodingCheckPredicate"), (name% "operator()"), (.prim .bool), [⟨(.prim .c16), (name% "c"), none⟩], [], (some apply_16_body)⟩,
   .func ⟨(name% "EncodingCheckPredicate"), (name% "operator()"), (.prim .bool), [⟨(.prim .c32), (name% "c"), none⟩], [], (some apply_32_body)⟩]

/-- `source/string.cxx:1-85`. -/
def items24 : List Item :=
  [.array (.prim (.enum (name% "RangeTypeFlags"))) (name% "rangeTypeToRangeFlag") (.var (name% "kFirstInvalidRange")) (.cons (.var (name% "kAsciiFlag")) (.cons (.var (name% "kUtf8Flag")) (.cons (.var (name% "kUcs2Flag")) (.cons (.var (name% "kUtf16Flag")) (.cons (.var (name% "kUcs4Flag")) (.cons (.var (name% "kUnicodeFlag")) .nil)))))),
   .func ⟨(nat_lit 0), (name% "isUtf16Encodable"), (.prim .bool), [⟨.param, (name% "c"), none⟩], [], (some isUtf16Encodable_body)⟩]

/-- `source/string.cxx:86-158`. -/
def items25 : List Item :=
  [.func ⟨(nat_lit 0), (name% "isUtf16EscapedRange"), (.prim .bool), [⟨(.prim .c32), (name% "c"), none⟩], [], (some isUtf16EscapedRange_32_body)⟩,
   .func ⟨(nat_lit 0), (name% "sequenceSizeCharStarts"), (.prim .int), [⟨(.ptr (.prim .char)), (name% "p"), none⟩], [], (some sequenceSizeCharStarts_8_body)⟩]

/-- `source/string.cxx:159-318`. -/
def items26 : List Item :=
  [.func ⟨(nat_lit 0), (name% "isFirstHalfUtf16AsUtf8"), (.prim .bool), [⟨(.ptr (.prim .char)), (name% "p"), none⟩], [], (some isFirstHalfUtf16AsUtf8_8_body)⟩,
   .func ⟨(nat_lit 0), (name% "isSecondHalfUtf16AsUtf8"), (.prim .bool), [⟨(.ptr (.prim .char)), (name% "p"), none⟩], [], (some isSecondHalfUtf16AsUtf8_8_body)⟩,
   .func ⟨(nat_lit 0), (name% "isUtf8"), (.prim .bool), [⟨(.ptr (.prim .char)), (name% "test"), none⟩, ⟨(.prim .uint), (name% "testLength"), none⟩, ⟨(.prim (.enum (name% "RangeType"))), (name% "targetRange"), none⟩, ⟨(.cls (name% "EncodingCheckPredicate")), (name% "pred"), none⟩], [], (some isUtf8_8_Len_E_Pred_body)⟩]

/-- `source/string.cxx:319-410`. -/
def items27 : List Item :=
  [.func ⟨(nat_lit 0), (name% "getUnicodeVersionSupported"), (.str (.prim .char)), [], [], (some getUnicodeVersionSupported_body)⟩,
   .func ⟨(nat_lit 0), (name% "isUtf8"), (.prim .bool), [⟨(.str (.prim .char)), (name% "test"), none⟩, ⟨(.prim (.enum (name% "RangeType"))), (name% "targetRange"), none⟩, ⟨(.cls (name% "EncodingCheckPredicate")), (name% "pred"), none⟩], [], (some isUtf8_S8_E_Pred_body)⟩,
   .func ⟨(nat_lit 0), (name% "isUtf8"), (.prim .bool), [⟨(.ptr (.prim .char)), (name% "test"), none⟩, ⟨(.prim (.enum (name% "RangeType"))), (name% "targetRange"), none⟩, ⟨(.cls (name% "EncodingCheckPredicate")), (name% "pred"), none⟩], [], (some isUtf8_8_E_Pred_body)⟩,
   .func ⟨(nat_lit 0), (name% "isUtf8"), (.prim .bool), [⟨(.ptr (.prim .char)), (name% "test"), none⟩, ⟨(.prim .uint), (name% "testLength"), none⟩, ⟨(.cls (name% "EncodingCheckPredicate")), (name% "pred"), none⟩], [], (some isUtf8_8_Len_Pred_body)⟩,
   .func ⟨(nat_lit 0), (name% "isUtf16"), (.prim .bool), [⟨(.str (.prim .c16)), (name% "test"), none⟩, ⟨(.prim (.enum (name% "RangeType"))), (name% "targetRange"), none⟩, ⟨(.cls (name% "EncodingCheckPredicate")), (name% "pred"), none⟩], [], (some isUtf16_S16_E_Pred_body)⟩,
   .func ⟨(nat_lit 0), (name% "isUtf16"), (.prim .bool), [⟨(.ptr (.prim .c16)), (name% "test"), none⟩, ⟨(.prim (.enum (name% "RangeType"))), (name% "targetRange"), none⟩, ⟨(.cls (name% "EncodingCheckPredicate")), (name% "pred"), none⟩], [], (some isUtf16_16_E_Pred_body)⟩]

/-- `source/string.cxx:411-481`. -/
def items28 : List Item :=
  [.func ⟨(nat_lit 0), (name% "isUcs2"), (.prim .bool), [⟨(.str (.prim .c16)), (name% "test"), none⟩, ⟨(.prim (.enum (name% "RangeType"))), (name% "targetRange"), none⟩, ⟨(.cls (name% "EncodingCheckPredicate")), (name% "pred"), none⟩], [], (some isUcs2_S16_E_Pred_body)⟩,
   .func ⟨(nat_lit 0), (name% "isUcs2"), (.prim .bool), [⟨(.ptr (.prim .c16)), (name% "test"), none⟩, ⟨(.prim (.enum (name% "RangeType"))), (name% "targetRange"), none⟩, ⟨(.cls (name% "EncodingCheckPredicate")), (name% "pred"), none⟩], [], (some isUcs2_16_E_Pred_body)⟩,
   .func ⟨(nat_lit 0), (name% "isUcs4"), (.prim .bool), [⟨(.str (.prim .c32)), (name% "test"), none⟩, ⟨(.prim (.enum (name% "RangeType"))), (name% "targetRange"), none⟩, ⟨(.cls (name% "EncodingCheckPredicate")), (name% "pred"), none⟩], [], (some isUcs4_S32_E_Pred_body)⟩,
   .func ⟨(nat_lit 0), (name% "isUcs4"), (.prim .bool), [⟨(.ptr (.prim .c32)), (name% "test"), none⟩, ⟨(.prim (.enum (name% "RangeType"))), (name% "targetRange"), none⟩, ⟨(.cls (name% "EncodingCheckPredicate")), (name% "pred"), none⟩], [], (some isUcs4_32_E_Pred_body)⟩]

/-- `source/string.cxx:482-576`. -/
def items29 : List Item :=
  [.func ⟨(nat_lit 0), (name% "toUtf8"), (.str (.prim .char)), [⟨(.ptr (.prim .c16)), (name% "src"), none⟩], [], (some toUtf8_16_body)⟩,
   .func ⟨(nat_lit 0), (name% "toUtf8"), (.str (.prim .char)), [⟨(.str (.prim .c16)), (name% "src"), none⟩], [], (some toUtf8_S16_body)⟩,
   .func ⟨(nat_lit 0), (name% "toUtf8"), (.str (.prim .char)), [⟨(.ptr (.prim .c32)), (name% "src"), none⟩], [], (some toUtf8_32_body)⟩,
   .func ⟨(nat_lit 0), (name% "toUtf8"), (.str (.prim .char)), [⟨(.str (.prim .c32)), (name% "src"), none⟩], [], (some toUtf8_S32_body)⟩,
   .func ⟨(nat_lit 0), (name% "toUcs2"), (.str (.prim .c16)), [⟨(.ptr (.prim .char)), (name% "src"), none⟩], [], (some toUcs2_8_body)⟩]

/-- `source/string.cxx:577-662`. -/
def items30 : List Item :=
  [.func ⟨(nat_lit 0), (name% "toUcs2"), (.str (.prim .c16)), [⟨(.str (.prim .char)), (name% "src"), none⟩], [], (some toUcs2_S8_body)⟩,
   .func ⟨(nat_lit 0), (name% "toUcs2"), (.str (.prim .c16)), [⟨(.ptr (.prim .c32)), (name% "src"), none⟩], [], (some toUcs2_32_body)⟩,
   .func ⟨(nat_lit 0), (name% "toUcs2"), (.str (.prim .c16)), [⟨(.str (.prim .c32)), (name% "src"), none⟩], [], (some toUcs2_S32_body)⟩,
   .func ⟨(nat_lit 0), (name% "toUtf16"), (.str (.prim .c16)), [⟨(.ptr (.prim .char)), (name% "src"), none⟩], [], (some toUtf16_8_body)⟩,
   .func ⟨(nat_lit 0), (name% "toUtf16"), (.str (.prim .c16)), [⟨(.str (.prim .char)), (name% "src"), none⟩], [], (some toUtf16_S8_body)⟩,
   .func ⟨(nat_lit 0), (name% "toUtf16"), (.str (.prim .c16)), [⟨(.ptr (.prim .c32)), (name% "src"), none⟩], [], (some toUtf16_32_body)⟩]

/-- `source/string.cxx:663-738`. -/
def items31 : List Item :=
  [.func ⟨(nat_lit 0), (name% "toUtf16"), (.str (.prim .c16)), [⟨(.str (.prim .c32)), (name% "src"), none⟩], [], (some toUtf16_S32_body)⟩,
   .func ⟨(nat_lit 0), (name% "toUcs4"), (.str (.prim .c32)), [⟨(.ptr (.prim .char)), (name% "src"), none⟩], [], (some toUcs4_8_body)⟩,
   .func ⟨(nat_lit 0), (name% "toUcs4"), (.str (.prim .c32)), [⟨(.str (.prim .char)), (name% "src"), none⟩], [], (some toUcs4_S8_body)⟩,
   .func ⟨(nat_lit 0), (name% "toUcs4"), (.str (.prim .c32)), [⟨(.ptr (.prim .c16)), (name% "src"), none⟩], [], (some toUcs4_16_body)⟩,
   .func ⟨(nat_lit 0), (name% "toUcs4"), (.str (.prim .c32)), [⟨(.str (.prim .c16)), (name% "src"), none⟩], [], (some toUcs4_S16_body)⟩]

/-- `source/string.cxx:739-836`. -/
def items32 : List Item :=
  [.func ⟨(nat_lit 0), (name% "unicodeLength"), (.prim .uint), [⟨(.str (.prim .char)), (name% "src"), none⟩], [], (some unicodeLength_S8_body)⟩,
   .func ⟨(nat_lit 0), (name% "unicodeLength"), (.prim .uint), [⟨(.ptr (.prim .char)), (name% "src"), none⟩, ⟨(.prim .uint), (name% "testLength"), none⟩], [], (some unicodeLength_8_Len_body)⟩]

/-- `source/string.cxx:837-915`. -/
def items33 : List Item :=
  [.func ⟨(nat_lit 0), (name% "unicodeLength"), (.prim .uint), [⟨(.str (.prim .c16)), (name% "src"), none⟩], [], (some unicodeLength_S16_body)⟩,
   .func ⟨(nat_lit 0), (name% "unicodeLength"), (.prim .uint), [⟨(.ptr (.prim .c16)), (name% "src"), none⟩, ⟨(.prim .uint), (name% "testLength"), none⟩], [], (some unicodeLength_16_Len_body)⟩]

/-- `source/string.cxx:916-949`. -/
def items34 : List Item :=
  [.func ⟨(nat_lit 0), (name% "unicodeLength"), (.prim .uint), [⟨(.str (.prim .c32)), (name% "src"), none⟩], [], (some unicodeLength_S32_body)⟩,
   .func ⟨(nat_lit 0), (name% "unicodeLength"), (.prim .uint), [⟨(.ptr (.prim .c32)), (name% "src"), none⟩, ⟨(.prim .uint), (name% "testLength"), none⟩], [], (some unicodeLength_32_Len_body)⟩]

/-- `source/string_toutf8.cxx:1-146`. -/
def items35 : List Item :=
  [.func ⟨(nat_lit 0), (name% "toUtf8"), (.str (.prim .char)), [⟨(.ptr (.prim .char)), (name% "src"), none⟩, ⟨(.prim (.enum (name% "SourceEncoding"))), (name% "srcType"), none⟩], [], (some toUtf8_8_E_body)⟩]

/-- `source/string_toutf8.cxx:147-148`. -/
def items36 : List Item :=
  []

/-- `source/string_tolower.cxx:1-85`. -/
def items37 : List Item :=
  [.func ⟨(nat_lit 0), (name% "isTurkicLang"), (.prim .bool), [⟨(.ptr (.prim .char)), (name% "lang"), none⟩], [], (some isTurkicLang_8_body)⟩]

/-- `source/string_tolower.cxx:86-147`. -/
def items38 : List Item :=
  [.func ⟨(nat_lit 0), (name% "toLower"), (.str (.prim .char)), [⟨(.str (.prim .char)), (name% "src"), none⟩, ⟨(.ptr (.prim .char)), (name% "lang"), none⟩], [], (some toLower_S8_8_body)⟩,
   .func ⟨(nat_lit 0), (name% "toLower"), (.str (.prim .c16)), [⟨(.str (.prim .c16)), (name% "src"), none⟩, ⟨(.ptr (.prim .char)), (name% "lang"), none⟩], [], (some toLower_S16_8_body)⟩,
   .func ⟨(nat_lit 0), (name% "toLower"), (.str (.prim .c32)), [⟨(.str (.prim .c32)), (name% "src"), none⟩, ⟨(.ptr (.prim .char)), (name% "lang"), none⟩], [], (some toLower_S32_8_body)⟩]

/-- `interface/string_trim.hxx:1-64`. -/
def items39 : List Item :=
  [.func ⟨(nat_lit 0), (name% "trim"), .void, [⟨(.ref (.str .param)), (name% "victim"), none⟩], [], (some trim_V_body)⟩]

/-- `interface/string_trim.hxx:65-109`. -/
def items40 : List Item :=
  [.func ⟨(nat_lit 0), (name% "trim"), .void, [⟨(.ref (.str .param)), (name% "victim"), none⟩, ⟨(.str .param), (name% "spaces"), none⟩], [], (some trim_V_S_body)⟩,
   .func ⟨(nat_lit 0), (name% "trimAscii7WhiteSpace"), .void, [⟨(.ref (.str (.prim .char))), (name% "victim"), none⟩], [], (some trimAscii7WhiteSpace_S8_body)⟩,
   .func ⟨(nat_lit 0), (name% "trimWhiteSpace"), .void, [⟨(.ref (.str (.prim .c32))), (name% "victim"), none⟩], [], (some trimWhiteSpace_S32_body)⟩,
   .func ⟨(nat_lit 0), (name% "trimWhiteSpace"), .void, [⟨(.ref (.str (.prim .c16))), (name% "victim"), none⟩], [], (some trimWhiteSpace_S16_body)⟩,
   .func ⟨(nat_lit 0), (name% "trimWhiteSpace"), .void, [⟨(.ref (.str (.prim .char))), (name% "victim"), none⟩], [], (some trimWhiteSpace_S8_body)⟩]

/-- `interface/string_splitjoin.hxx:1-109`. -/
def items41 : List Item :=
  [.func ⟨(nat_lit 0), (name% "split"), (.vec (.str .param)), [⟨(.str .param), (name% "src"), none⟩, ⟨.param, (name% "delim"), none⟩], [], (some split_S_body)⟩]

/-- `interface/string_splitjoin.hxx:110-148`. -/
def items42 : List Item :=
  [.func ⟨(nat_lit 0), (name% "join"), (.str .param), [⟨(.vec (.str .param)), (name% "src"), none⟩, ⟨.param, (name% "delim"), none⟩], [], (some join_body)⟩]

/-- The pieces together (`Source.common`). -/
def items : List Item :=
  items0.append <|
  items1.append <|
  items2.append <|
  items3.append <|
  items4.append <|
  items5.append <|
  items6.append <|
  items7.append <|
  items8.append <|
  items9.append <|
  items10.append <|
  items11.append <|
  items12.append <|
  items13.append <|
  items14.append <|
  items15.append <|
  items16.append <|
  items17.append <|
  items18.append <|
  items19.append <|
  items20.append <|
  items21.append <|
  items22.append <|
  items23.append <|
  items24.append <|
  items25.append <|
  items26.append <|
  items27.append <|
  items28.append <|
  items29.append <|
  items30.append <|
  items31.append <|
  items32.append <|
  items33.append <|
  items34.append <|
  items35.append <|
  items36.append <|
  items37.append <|
  items38.append <|
  items39.append <|
  items40.append <|
  items41.append <|
  items42.append []

/-- `interface/string.hxx:123`. -/
def construct : Fun :=
  ⟨(name% "EncodingCheckPredicate"), (name% "EncodingCheckPredicate"), (.cls (name% "EncodingCheckPredicate")), [], [((name% "m_mask"), (.num 0)), ((name% "m_value"), (.num 0))], (some construct_body)⟩

/-- `interface/string.hxx:126-129`. -/
def checkIf_E : Fun :=
  ⟨(nat_lit 0), (name% "checkIf"), (.cls (name% "EncodingCheckPredicate")), [⟨(.prim (.enum (name% "EncodingType"))), (name% "toCheckFor"), none⟩], [], (some checkIf_E_body)⟩

/-- `interface/string.hxx:131-134`. -/
def checkIfNot_E : Fun :=
  ⟨(nat_lit 0), (name% "checkIfNot"), (.cls (name% "EncodingCheckPredicate")), [⟨(.prim (.enum (name% "EncodingType"))), (name% "toCheckFor"), none⟩], [], (some checkIfNot_E_body)⟩

/-- `interface/string.hxx:152`. -/
def differs_Pred : Fun :=
  ⟨(name% "EncodingCheckPredicate"), (name% "operator!="), (.prim .bool), [⟨(.cls (name% "EncodingCheckPredicate")), (name% "other"), none⟩], [], (some differs_Pred_body)⟩

/-- `interface/string.hxx:192-195`. -/
def validIf_E : Fun :=
  ⟨(nat_lit 0), (name% "validIf"), (.cls (name% "EncodingCheckPredicate")), [⟨(.prim (.enum (name% "EncodingType"))), (name% "toCheckFor"), none⟩], [], (some validIf_E_body)⟩

/-- `interface/string.hxx:197-200`. -/
def validIfNot_E : Fun :=
  ⟨(nat_lit 0), (name% "validIfNot"), (.cls (name% "EncodingCheckPredicate")), [⟨(.prim (.enum (name% "EncodingType"))), (name% "toCheckFor"), none⟩], [], (some validIfNot_E_body)⟩

/-- `interface/string.hxx:253-257`. -/
def isUtf8_S8_Pred : Fun :=
  ⟨(nat_lit 0), (name% "isUtf8"), (.prim .bool), [⟨(.str (.prim .char)), (name% "test"), none⟩, ⟨(.cls (name% "EncodingCheckPredicate")), (name% "pred"), none⟩], [], (some isUtf8_S8_Pred_body)⟩

/-- `interface/string.hxx:267-271`. -/
def isUtf8_8_Pred : Fun :=
  ⟨(nat_lit 0), (name% "isUtf8"), (.prim .bool), [⟨(.ptr (.prim .char)), (name% "test"), none⟩, ⟨(.cls (name% "EncodingCheckPredicate")), (name% "pred"), none⟩], [], (some isUtf8_8_Pred_body)⟩

/-- `interface/string.hxx:292-293`. -/
def isUtf16_S16_Pred : Fun :=
  ⟨(nat_lit 0), (name% "isUtf16"), (.prim .bool), [⟨(.str (.prim .c16)), (name% "test"), none⟩, ⟨(.cls (name% "EncodingCheckPredicate")), (name% "pred"), none⟩], [], (some isUtf16_S16_Pred_body)⟩

/-- `interface/string.hxx:294-295`. -/
def isUtf16_16_Pred : Fun :=
  ⟨(nat_lit 0), (name% "isUtf16"), (.prim .bool), [⟨(.ptr (.prim .c16)), (name% "test"), none⟩, ⟨(.cls (name% "EncodingCheckPredicate")), (name% "pred"), none⟩], [], (some isUtf16_16_Pred_body)⟩

/-- `interface/string.hxx:307-308`. -/
def isUcs2_S16_Pred : Fun :=
  ⟨(nat_lit 0), (name% "isUcs2"), (.prim .bool), [⟨(.str (.prim .c16)), (name% "test"), none⟩, ⟨(.cls (name% "EncodingCheckPredicate")), (name% "pred"), none⟩], [], (some isUcs2_S16_Pred_body)⟩

/-- `interface/string.hxx:309-310`. -/
def isUcs2_16_Pred : Fun :=
  ⟨(nat_lit 0), (name% "isUcs2"), (.prim .bool), [⟨(.ptr (.prim .c16)), (name% "test"), none⟩, ⟨(.cls (name% "EncodingCheckPredicate")), (name% "pred"), none⟩], [], (some isUcs2_16_Pred_body)⟩

/-- `interface/string.hxx:322-323`. -/
def isUcs4_S32_Pred : Fun :=
  ⟨(nat_lit 0), (name% "isUcs4"), (.prim .bool), [⟨(.str (.prim .c32)), (name% "test"), none⟩, ⟨(.cls (name% "EncodingCheckPredicate")), (name% "pred"), none⟩], [], (some isUcs4_S32_Pred_body)⟩

/-- `interface/string.hxx:324-325`. -/
def isUcs4_32_Pred : Fun :=
  ⟨(nat_lit 0), (name% "isUcs4"), (.prim .bool), [⟨(.ptr (.prim .c32)), (name% "test"), none⟩, ⟨(.cls (name% "EncodingCheckPredicate")), (name% "pred"), none⟩], [], (some isUcs4_32_Pred_body)⟩

/-- `source/string_internal.hxx:118`. -/
def isUnicodeAssigned_8 : Fun :=
  ⟨(nat_lit 0), (name% "isUnicodeAssigned"), (.prim .bool), [⟨(.prim .char), (nat_lit 0), none⟩], [], (some isUnicodeAssigned_8_body)⟩

/-- `source/string_internal.hxx:119` (a declaration; the definition is in the table files). -/
def isUnicodeAssigned_16 : Fun :=
  ⟨(nat_lit 0), (name% "isUnicodeAssigned"), (.prim .bool), [⟨(.prim .c16), (name% "c"), none⟩], [], none⟩

/-- `source/string_internal.hxx:120` (a declaration; the definition is in the table files). -/
def isUnicodeAssigned_32 : Fun :=
  ⟨(nat_lit 0), (name% "isUnicodeAssigned"), (.prim .bool), [⟨(.prim .c32), (name% "c"), none⟩], [], none⟩

/-- `source/string_internal.hxx:122`. -/
def isUnicodePrivate_8 : Fun :=
  ⟨(nat_lit 0), (name% "isUnicodePrivate"), (.prim .bool), [⟨(.prim .char), (nat_lit 0), none⟩], [], (some isUnicodePrivate_8_body)⟩

/-- `source/string_internal.hxx:123` (a declaration; the definition is in the table files). -/
def isUnicodePrivate_16 : Fun :=
  ⟨(nat_lit 0), (name% "isUnicodePrivate"), (.prim .bool), [⟨(.prim .c16), (name% "c"), none⟩], [], none⟩

/-- `source/string_internal.hxx:124` (a declaration; the definition is in the table files). -/
def isUnicodePrivate_32 : Fun :=
  ⟨(nat_lit 0), (name% "isUnicodePrivate"), (.prim .bool), [⟨(.prim .c32), (name% "c"), none⟩], [], none⟩

/-- `source/string_internal.hxx:126` (a declaration; the definition is in the table files). -/
def isControlChar_8 : Fun :=
  ⟨(nat_lit 0), (name% "isControlChar"), (.prim .bool), [⟨(.prim .char), (name% "c"), none⟩], [], none⟩

/-- `source/string_internal.hxx:127` (a declaration; the definition is in the table files). -/
def isControlChar_16 : Fun :=
  ⟨(nat_lit 0), (name% "isControlChar"), (.prim .bool), [⟨(.prim .c16), (name% "c"), none⟩], [], none⟩

/-- `source/string_internal.hxx:128` (a declaration; the definition is in the table files). -/
def isControlChar_32 : Fun :=
  ⟨(nat_lit 0), (name% "isControlChar"), (.prim .bool), [⟨(.prim .c32), (name% "c"), none⟩], [], none⟩

/-- `source/string_internal.hxx:130` (a declaration; the definition is in the table files). -/
def isWhitespaceChar_8 : Fun :=
  ⟨(nat_lit 0), (name% "isWhitespaceChar"), (.prim .bool), [⟨(.prim .char), (name% "c"), none⟩], [], none⟩

/-- `source/string_internal.hxx:131` (a declaration; the definition is in the table files). -/
def isWhitespaceChar_16 : Fun :=
  ⟨(nat_lit 0), (name% "isWhitespaceChar"), (.prim .bool), [⟨(.prim .c16), (name% "c"), none⟩], [], none⟩

/-- `source/string_internal.hxx:132` (a declaration; the definition is in the table files). -/
def isWhitespaceChar_32 : Fun :=
  ⟨(nat_lit 0), (name% "isWhitespaceChar"), (.prim .bool), [⟨(.prim .c32), (name% "c"), none⟩], [], none⟩

/-- `source/string_internal.hxx:137-147`. -/
def getUnicodeEncodableRangeFlag : Fun :=
  ⟨(nat_lit 0), (name% "getUnicodeEncodableRangeFlag"), (.prim (.enum (name% "RangeTypeFlags"))), [⟨.param, (name% "c"), none⟩], [], (some getUnicodeEncodableRangeFlag_body)⟩

/-- `source/string_internal.hxx:153-182`. -/
def getCharEncodableRangeFlags : Fun :=
  ⟨(nat_lit 0), (name% "getCharEncodableRangeFlags"), (.prim (.enum (name% "RangeTypeFlags"))), [⟨.param, (name% "c"), none⟩], [], (some getCharEncodableRangeFlags_body)⟩

/-- `source/string_internal.hxx:188-217`. -/
def getRangeFlag_8 : Fun :=
  ⟨(nat_lit 0), (name% "getRangeFlag"), (.prim (.enum (name% "RangeTypeFlags"))), [⟨(.prim .char), (name% "firstChar"), none⟩], [], (some getRangeFlag_8_body)⟩

/-- `source/string_internal.hxx:223-239`. -/
def getRangeFlag_16 : Fun :=
  ⟨(nat_lit 0), (name% "getRangeFlag"), (.prim (.enum (name% "RangeTypeFlags"))), [⟨(.prim .c16), (name% "firstChar"), none⟩], [], (some getRangeFlag_16_body)⟩

/-- `source/string_internal.hxx:245-254`. -/
def charToEncodingTypeMask : Fun :=
  ⟨(nat_lit 0), (name% "charToEncodingTypeMask"), (.prim .uint), [⟨.param, (name% "c"), none⟩], [], (some charToEncodingTypeMask_body)⟩

/-- `source/string_internal.hxx:262-271`. -/
def isFirstHalfUtf16 : Fun :=
  ⟨(nat_lit 0), (name% "isFirstHalfUtf16"), (.prim .bool), [⟨.param, (name% "c"), none⟩], [], (some isFirstHalfUtf16_body)⟩

/-- `source/string_internal.hxx:279-288`. -/
def isSecondHalfUtf16 : Fun :=
  ⟨(nat_lit 0), (name% "isSecondHalfUtf16"), (.prim .bool), [⟨.param, (name% "c"), none⟩], [], (some isSecondHalfUtf16_body)⟩

/-- `source/string_internal.hxx:293-297`. -/
def rawDecodeUtf8_8_8 : Fun :=
  ⟨(nat_lit 0), (name% "rawDecodeUtf8"), (.prim .c16), [⟨(.prim .char), (name% "c0"), none⟩, ⟨(.prim .char), (name% "c1"), none⟩], [], (some rawDecodeUtf8_8_8_body)⟩

/-- `source/string_internal.hxx:303-307`. -/
def rawDecodeUtf8_8_8_8 : Fun :=
  ⟨(nat_lit 0), (name% "rawDecodeUtf8"), (.prim .c16), [⟨(.prim .char), (name% "c0"), none⟩, ⟨(.prim .char), (name% "c1"), none⟩, ⟨(.prim .char), (name% "c2"), none⟩], [], (some rawDecodeUtf8_8_8_8_body)⟩

/-- `source/string_internal.hxx:313-318`. -/
def rawDecodeUtf8_8_8_8_8 : Fun :=
  ⟨(nat_lit 0), (name% "rawDecodeUtf8"), (.prim .c32), [⟨(.prim .char), (name% "c0"), none⟩, ⟨(.prim .char), (name% "c1"), none⟩, ⟨(.prim .char), (name% "c2"), none⟩, ⟨(.prim .char), (name% "c3"), none⟩], [], (some rawDecodeUtf8_8_8_8_8_body)⟩

/-- `source/string_internal.hxx:324-330`. -/
def rawDecodeUtf8_8_8_8_8_8 : Fun :=
  ⟨(nat_lit 0), (name% "rawDecodeUtf8"), (.prim .c32), [⟨(.prim .char), (name% "c0"), none⟩, ⟨(.prim .char), (name% "c1"), none⟩, ⟨(.prim .char), (name% "c2"), none⟩, ⟨(.prim .char), (name% "c3"), none⟩, ⟨(.prim .char), (name% "c4"), none⟩], [], (some rawDecodeUtf8_8_8_8_8_8_body)⟩

/-- `source/string_internal.hxx:336-342`. -/
def rawDecodeUtf8_8_8_8_8_8_8 : Fun :=
  ⟨(nat_lit 0), (name% "rawDecodeUtf8"), (.prim .c32), [⟨(.prim .char), (name% "c0"), none⟩, ⟨(.prim .char), (name% "c1"), none⟩, ⟨(.prim .char), (name% "c2"), none⟩, ⟨(.prim .char), (name% "c3"), none⟩, ⟨(.prim .char), (name% "c4"), none⟩, ⟨(.prim .char), (name% "c5"), none⟩], [], (some rawDecodeUtf8_8_8_8_8_8_8_body)⟩

/-- `source/string_internal.hxx:354-402`. -/
def encodeUtf8 : Fun :=
  ⟨(nat_lit 0), (name% "encodeUtf8"), .void, [⟨.param, (name% "c"), none⟩, ⟨(.ref (.adder (.prim .char))), (name% "adder"), none⟩], [], (some encodeUtf8_body)⟩

/-- `source/string_internal.hxx:412-420`. -/
def rawDecodeUtf16_16_16 : Fun :=
  ⟨(nat_lit 0), (name% "rawDecodeUtf16"), (.prim .c32), [⟨(.prim .c16), (name% "c0"), none⟩, ⟨(.prim .c16), (name% "c1"), none⟩], [], (some rawDecodeUtf16_16_16_body)⟩

/-- `source/string_internal.hxx:426-445`. -/
def rawEncodeUtf16 : Fun :=
  ⟨(nat_lit 0), (name% "rawEncodeUtf16"), .void, [⟨.param, (name% "c"), none⟩, ⟨(.adder (.prim .c16)), (name% "adder"), none⟩], [], (some rawEncodeUtf16_body)⟩

/-- `source/string_internal.hxx:453` (a declaration; the definition is in the table files). -/
def turkicToLower_32 : Fun :=
  ⟨(nat_lit 0), (name% "turkicToLower"), (.prim .c32), [⟨(.prim .c32), (name% "c"), none⟩], [], none⟩

/-- `source/string_internal.hxx:454` (a declaration; the definition is in the table files). -/
def toLower_32 : Fun :=
  ⟨(nat_lit 0), (name% "toLower"), (.prim .c32), [⟨(.prim .c32), (name% "c"), none⟩], [], none⟩

/-- `source/string_decode_utf8.cxx:78-201`. -/
def decodeUtf8 : Fun :=
  ⟨(nat_lit 0), (name% "decodeUtf8"), (.prim .c32), [⟨(.ref (.ptr (.prim .char))), (name% "p"), none⟩], [], (some decodeUtf8_body)⟩

/-- `source/encoding_check_predicate.cxx:66-81`. -/
def construct_E : Fun :=
  ⟨(name% "EncodingCheckPredicate"), (name% "EncodingCheckPredicate"), (.cls (name% "EncodingCheckPredicate")), [⟨(.prim (.enum (name% "EncodingType"))), (name% "t"), none⟩, ⟨(.prim .bool), (name% "checkForIt"), (some (.bool true))⟩], [((name% "m_mask"), (.num 0)), ((name% "m_value"), (.num 0))], (some construct_E_body)⟩

/-- `source/encoding_check_predicate.cxx:86-95`. -/
def andIf_E : Fun :=
  ⟨(name% "EncodingCheckPredicate"), (name% "andIf"), (.cls (name% "EncodingCheckPredicate")), [⟨(.prim (.enum (name% "EncodingType"))), (name% "toCheckFor"), none⟩], [], (some andIf_E_body)⟩

/-- `source/encoding_check_predicate.cxx:100-109`. -/
def andIfNot_E : Fun :=
  ⟨(name% "EncodingCheckPredicate"), (name% "andIfNot"), (.cls (name% "EncodingCheckPredicate")), [⟨(.prim (.enum (name% "EncodingType"))), (name% "toCheckFor"), none⟩], [], (some andIfNot_E_body)⟩

/-- `source/encoding_check_predicate.cxx:114-122`. -/
def equals_Pred : Fun :=
  ⟨(name% "EncodingCheckPredicate"), (name% "operator=="), (.prim .bool), [⟨(.cls (name% "EncodingCheckPredicate")), (name% "other"), none⟩], [], (some equals_Pred_body)⟩

/-- `source/encoding_check_predicate.cxx:127-135`. -/
def apply_8 : Fun :=
  ⟨(name% "EncodingCheckPredicate"), (name% "operator()"), (.prim .bool), [⟨(.prim .char), (name% "c"), none⟩], [], (some apply_8_body)⟩

/-- `source/encoding_check_predicate.cxx:140-148`. -/
def apply_16 : Fun :=
  ⟨(name% "EncodingCheckPredicate"), (name% "operator()"), (.prim .bool), [⟨(.prim .c16), (name% "c"), none⟩], [], (some apply_16_body)⟩

/-- `source/encoding_check_predicate.cxx:153-161`. -/
def apply_32 : Fun :=
  ⟨(name% "EncodingCheckPredicate"), (name% "operator()"), (.prim .bool), [⟨(.prim .c32), (name% "c"), none⟩], [], (some apply_32_body)⟩

/-- `source/string.cxx:74-85`. -/
def isUtf16Encodable : Fun :=
  ⟨(nat_lit 0), (name% "isUtf16Encodable"), (.prim .bool), [⟨.param, (name% "c"), none⟩], [], (some isUtf16Encodable_body)⟩

/-- `source/string.cxx:93-99`. -/
def isUtf16EscapedRange_32 : Fun :=
  ⟨(nat_lit 0), (name% "isUtf16EscapedRange"), (.prim .bool), [⟨(.prim .c32), (name% "c"), none⟩], [], (some isUtf16EscapedRange_32_body)⟩

/-- `source/string.cxx:112-158`. -/
def sequenceSizeCharStarts_8 : Fun :=
  ⟨(nat_lit 0), (name% "sequenceSizeCharStarts"), (.prim .int), [⟨(.ptr (.prim .char)), (name% "p"), none⟩], [], (some sequenceSizeCharStarts_8_body)⟩

/-- `source/string.cxx:169-178`. -/
def isFirstHalfUtf16AsUtf8_8 : Fun :=
  ⟨(nat_lit 0), (name% "isFirstHalfUtf16AsUtf8"), (.prim .bool), [⟨(.ptr (.prim .char)), (name% "p"), none⟩], [], (some isFirstHalfUtf16AsUtf8_8_body)⟩

/-- `source/string.cxx:189-198`. -/
def isSecondHalfUtf16AsUtf8_8 : Fun :=
  ⟨(nat_lit 0), (name% "isSecondHalfUtf16AsUtf8"), (.prim .bool), [⟨(.ptr (.prim .char)), (name% "p"), none⟩], [], (some isSecondHalfUtf16AsUtf8_8_body)⟩

/-- `source/string.cxx:210-318`. -/
def isUtf8_8_Len_E_Pred : Fun :=
  ⟨(nat_lit 0), (name% "isUtf8"), (.prim .bool), [⟨(.ptr (.prim .char)), (name% "test"), none⟩, ⟨(.prim .uint), (name% "testLength"), none⟩, ⟨(.prim (.enum (name% "RangeType"))), (name% "targetRange"), none⟩, ⟨(.cls (name% "EncodingCheckPredicate")), (name% "pred"), none⟩], [], (some isUtf8_8_Len_E_Pred_body)⟩

/-- `source/string.cxx:331-334`. -/
def getUnicodeVersionSupported : Fun :=
  ⟨(nat_lit 0), (name% "getUnicodeVersionSupported"), (.str (.prim .char)), [], [], (some getUnicodeVersionSupported_body)⟩

/-- `source/string.cxx:338-341`. -/
def isUtf8_S8_E_Pred : Fun :=
  ⟨(nat_lit 0), (name% "isUtf8"), (.prim .bool), [⟨(.str (.prim .char)), (name% "test"), none⟩, ⟨(.prim (.enum (name% "RangeType"))), (name% "targetRange"), (some (.var (name% "kUtf8")))⟩, ⟨(.cls (name% "EncodingCheckPredicate")), (name% "pred"), (some (.make (.cls (name% "EncodingCheckPredicate")) .nil))⟩], [], (some isUtf8_S8_E_Pred_body)⟩

/-- `source/string.cxx:343-346`. -/
def isUtf8_8_E_Pred : Fun :=
  ⟨(nat_lit 0), (name% "isUtf8"), (.prim .bool), [⟨(.ptr (.prim .char)), (name% "test"), none⟩, ⟨(.prim (.enum (name% "RangeType"))), (name% "targetRange"), (some (.var (name% "kUtf8")))⟩, ⟨(.cls (name% "EncodingCheckPredicate")), (name% "pred"), (some (.make (.cls (name% "EncodingCheckPredicate")) .nil))⟩], [], (some isUtf8_8_E_Pred_body)⟩

/-- `source/string.cxx:348-351`. -/
def isUtf8_8_Len_Pred : Fun :=
  ⟨(nat_lit 0), (name% "isUtf8"), (.prim .bool), [⟨(.ptr (.prim .char)), (name% "test"), none⟩, ⟨(.prim .uint), (name% "testLength"), none⟩, ⟨(.cls (name% "EncodingCheckPredicate")), (name% "pred"), (some (.make (.cls (name% "EncodingCheckPredicate")) .nil))⟩], [], (some isUtf8_8_Len_Pred_body)⟩

/-- `source/string.cxx:355-358`. -/
def isUtf16_S16_E_Pred : Fun :=
  ⟨(nat_lit 0), (name% "isUtf16"), (.prim .bool), [⟨(.str (.prim .c16)), (name% "test"), none⟩, ⟨(.prim (.enum (name% "RangeType"))), (name% "targetRange"), (some (.var (name% "kUtf16")))⟩, ⟨(.cls (name% "EncodingCheckPredicate")), (name% "pred"), (some (.make (.cls (name% "EncodingCheckPredicate")) .nil))⟩], [], (some isUtf16_S16_E_Pred_body)⟩

/-- `source/string.cxx:360-410`. -/
def isUtf16_16_E_Pred : Fun :=
  ⟨(nat_lit 0), (name% "isUtf16"), (.prim .bool), [⟨(.ptr (.prim .c16)), (name% "test"), none⟩, ⟨(.prim (.enum (name% "RangeType"))), (name% "targetRange"), (some (.var (name% "kUtf16")))⟩, ⟨(.cls (name% "EncodingCheckPredicate")), (name% "pred"), (some (.make (.cls (name% "EncodingCheckPredicate")) .nil))⟩], [], (some isUtf16_16_E_Pred_body)⟩

/-- `source/string.cxx:414-417`. -/
def isUcs2_S16_E_Pred : Fun :=
  ⟨(nat_lit 0), (name% "isUcs2"), (.prim .bool), [⟨(.str (.prim .c16)), (name% "test"), none⟩, ⟨(.prim (.enum (name% "RangeType"))), (name% "targetRange"), (some (.var (name% "kUcs2")))⟩, ⟨(.cls (name% "EncodingCheckPredicate")), (name% "pred"), (some (.make (.cls (name% "EncodingCheckPredicate")) .nil))⟩], [], (some isUcs2_S16_E_Pred_body)⟩

/-- `source/string.cxx:419-448`. -/
def isUcs2_16_E_Pred : Fun :=
  ⟨(nat_lit 0), (name% "isUcs2"), (.prim .bool), [⟨(.ptr (.prim .c16)), (name% "test"), none⟩, ⟨(.prim (.enum (name% "RangeType"))), (name% "targetRange"), (some (.var (name% "kUcs2")))⟩, ⟨(.cls (name% "EncodingCheckPredicate")), (name% "pred"), (some (.make (.cls (name% "EncodingCheckPredicate")) .nil))⟩], [], (some isUcs2_16_E_Pred_body)⟩

/-- `source/string.cxx:452-455`. -/
def isUcs4_S32_E_Pred : Fun :=
  ⟨(nat_lit 0), (name% "isUcs4"), (.prim .bool), [⟨(.str (.prim .c32)), (name% "test"), none⟩, ⟨(.prim (.enum (name% "RangeType"))), (name% "targetRange"), (some (.var (name% "kUcs4")))⟩, ⟨(.cls (name% "EncodingCheckPredicate")), (name% "pred"), (some (.make (.cls (name% "EncodingCheckPredicate")) .nil))⟩], [], (some isUcs4_S32_E_Pred_body)⟩

/-- `source/string.cxx:457-481`. -/
def isUcs4_32_E_Pred : Fun :=
  ⟨(nat_lit 0), (name% "isUcs4"), (.prim .bool), [⟨(.ptr (.prim .c32)), (name% "test"), none⟩, ⟨(.prim (.enum (name% "RangeType"))), (name% "targetRange"), (some (.var (name% "kUcs4")))⟩, ⟨(.cls (name% "EncodingCheckPredicate")), (name% "pred"), (some (.make (.cls (name% "EncodingCheckPredicate")) .nil))⟩], [], (some isUcs4_32_E_Pred_body)⟩

/-- `source/string.cxx:487-514`. -/
def toUtf8_16 : Fun :=
  ⟨(nat_lit 0), (name% "toUtf8"), (.str (.prim .char)), [⟨(.ptr (.prim .c16)), (name% "src"), none⟩], [], (some toUtf8_16_body)⟩

/-- `source/string.cxx:516-519`. -/
def toUtf8_S16 : Fun :=
  ⟨(nat_lit 0), (name% "toUtf8"), (.str (.prim .char)), [⟨(.str (.prim .c16)), (name% "src"), none⟩], [], (some toUtf8_S16_body)⟩

/-- `source/string.cxx:523-544`. -/
def toUtf8_32 : Fun :=
  ⟨(nat_lit 0), (name% "toUtf8"), (.str (.prim .char)), [⟨(.ptr (.prim .c32)), (name% "src"), none⟩], [], (some toUtf8_32_body)⟩

/-- `source/string.cxx:546-549`. -/
def toUtf8_S32 : Fun :=
  ⟨(nat_lit 0), (name% "toUtf8"), (.str (.prim .char)), [⟨(.str (.prim .c32)), (name% "src"), none⟩], [], (some toUtf8_S32_body)⟩

/-- `source/string.cxx:555-576`. -/
def toUcs2_8 : Fun :=
  ⟨(nat_lit 0), (name% "toUcs2"), (.str (.prim .c16)), [⟨(.ptr (.prim .char)), (name% "src"), none⟩], [], (some toUcs2_8_body)⟩

/-- `source/string.cxx:578-581`. -/
def toUcs2_S8 : Fun :=
  ⟨(nat_lit 0), (name% "toUcs2"), (.str (.prim .c16)), [⟨(.str (.prim .char)), (name% "src"), none⟩], [], (some toUcs2_S8_body)⟩

/-- `source/string.cxx:585-601`. -/
def toUcs2_32 : Fun :=
  ⟨(nat_lit 0), (name% "toUcs2"), (.str (.prim .c16)), [⟨(.ptr (.prim .c32)), (name% "src"), none⟩], [], (some toUcs2_32_body)⟩

/-- `source/string.cxx:603-606`. -/
def toUcs2_S32 : Fun :=
  ⟨(nat_lit 0), (name% "toUcs2"), (.str (.prim .c16)), [⟨(.str (.prim .c32)), (name% "src"), none⟩], [], (some toUcs2_S32_body)⟩

/-- `source/string.cxx:612-634`. -/
def toUtf16_8 : Fun :=
  ⟨(nat_lit 0), (name% "toUtf16"), (.str (.prim .c16)), [⟨(.ptr (.prim .char)), (name% "src"), none⟩], [], (some toUtf16_8_body)⟩

/-- `source/string.cxx:636-639`. -/
def toUtf16_S8 : Fun :=
  ⟨(nat_lit 0), (name% "toUtf16"), (.str (.prim .c16)), [⟨(.str (.prim .char)), (name% "src"), none⟩], [], (some toUtf16_S8_body)⟩

/-- `source/string.cxx:643-662`. -/
def toUtf16_32 : Fun :=
  ⟨(nat_lit 0), (name% "toUtf16"), (.str (.prim .c16)), [⟨(.ptr (.prim .c32)), (name% "src"), none⟩], [], (some toUtf16_32_body)⟩

/-- `source/string.cxx:664-667`. -/
def toUtf16_S32 : Fun :=
  ⟨(nat_lit 0), (name% "toUtf16"), (.str (.prim .c16)), [⟨(.str (.prim .c32)), (name% "src"), none⟩], [], (some toUtf16_S32_body)⟩

/-- `source/string.cxx:673-694`. -/
def toUcs4_8 : Fun :=
  ⟨(nat_lit 0), (name% "toUcs4"), (.str (.prim .c32)), [⟨(.ptr (.prim .char)), (name% "src"), none⟩], [], (some toUcs4_8_body)⟩

/-- `source/string.cxx:696-699`. -/
def toUcs4_S8 : Fun :=
  ⟨(nat_lit 0), (name% "toUcs4"), (.str (.prim .c32)), [⟨(.str (.prim .char)), (name% "src"), none⟩], [], (some toUcs4_S8_body)⟩

/-- `source/string.cxx:703-733`. -/
def toUcs4_16 : Fun :=
  ⟨(nat_lit 0), (name% "toUcs4"), (.str (.prim .c32)), [⟨(.ptr (.prim .c16)), (name% "src"), none⟩], [], (some toUcs4_16_body)⟩

/-- `source/string.cxx:735-738`. -/
def toUcs4_S16 : Fun :=
  ⟨(nat_lit 0), (name% "toUcs4"), (.str (.prim .c32)), [⟨(.str (.prim .c16)), (name% "src"), none⟩], [], (some toUcs4_S16_body)⟩

/-- `source/string.cxx:744-747`. -/
def unicodeLength_S8 : Fun :=
  ⟨(nat_lit 0), (name% "unicodeLength"), (.prim .uint), [⟨(.str (.prim .char)), (name% "src"), none⟩], [], (some unicodeLength_S8_body)⟩

/-- `source/string.cxx:749-836`. -/
def unicodeLength_8_Len : Fun :=
  ⟨(nat_lit 0), (name% "unicodeLength"), (.prim .uint), [⟨(.ptr (.prim .char)), (name% "src"), none⟩, ⟨(.prim .uint), (name% "testLength"), (some (.num 0))⟩], [], (some unicodeLength_8_Len_body)⟩

/-- `source/string.cxx:842-845`. -/
def unicodeLength_S16 : Fun :=
  ⟨(nat_lit 0), (name% "unicodeLength"), (.prim .uint), [⟨(.str (.prim .c16)), (name% "src"), none⟩], [], (some unicodeLength_S16_body)⟩

/-- `source/string.cxx:847-915`. -/
def unicodeLength_16_Len : Fun :=
  ⟨(nat_lit 0), (name% "unicodeLength"), (.prim .uint), [⟨(.ptr (.prim .c16)), (name% "src"), none⟩, ⟨(.prim .uint), (name% "testLength"), (some (.num 0))⟩], [], (some unicodeLength_16_Len_body)⟩

/-- `source/string.cxx:921-924`. -/
def unicodeLength_S32 : Fun :=
  ⟨(nat_lit 0), (name% "unicodeLength"), (.prim .uint), [⟨(.str (.prim .c32)), (name% "src"), none⟩], [], (some unicodeLength_S32_body)⟩

/-- `source/string.cxx:926-946`. -/
def unicodeLength_32_Len : Fun :=
  ⟨(nat_lit 0), (name% "unicodeLength"), (.prim .uint), [⟨(.ptr (.prim .c32)), (name% "src"), none⟩, ⟨(.prim .uint), (name% "testLength"), (some (.num 0))⟩], [], (some unicodeLength_32_Len_body)⟩

/-- `source/string_toutf8.cxx:51-146`. -/
def toUtf8_8_E : Fun :=
  ⟨(nat_lit 0), (name% "toUtf8"), (.str (.prim .char)), [⟨(.ptr (.prim .char)), (name% "src"), none⟩, ⟨(.prim (.enum (name% "SourceEncoding"))), (name% "srcType"), none⟩], [], (some toUtf8_8_E_body)⟩

/-- `source/string_tolower.cxx:63-85`. -/
def isTurkicLang_8 : Fun :=
  ⟨(nat_lit 0), (name% "isTurkicLang"), (.prim .bool), [⟨(.ptr (.prim .char)), (name% "lang"), none⟩], [], (some isTurkicLang_8_body)⟩

/-- `source/string_tolower.cxx:96-108`. -/
def toLower_S8_8 : Fun :=
  ⟨(nat_lit 0), (name% "toLower"), (.str (.prim .char)), [⟨(.str (.prim .char)), (name% "src"), none⟩, ⟨(.ptr (.prim .char)), (name% "lang"), (some .null)⟩], [], (some toLower_S8_8_body)⟩

/-- `source/string_tolower.cxx:112-124`. -/
def toLower_S16_8 : Fun :=
  ⟨(nat_lit 0), (name% "toLower"), (.str (.prim .c16)), [⟨(.str (.prim .c16)), (name% "src"), none⟩, ⟨(.ptr (.prim .char)), (name% "lang"), (some .null)⟩], [], (some toLower_S16_8_body)⟩

/-- `source/string_tolower.cxx:128-145`. -/
def toLower_S32_8 : Fun :=
  ⟨(nat_lit 0), (name% "toLower"), (.str (.prim .c32)), [⟨(.str (.prim .c32)), (name% "src"), none⟩, ⟨(.ptr (.prim .char)), (name% "lang"), (some .null)⟩], [], (some toLower_S32_8_body)⟩

/-- `interface/string_trim.hxx:51-64`. -/
def trim_V : Fun :=
  ⟨(nat_lit 0), (name% "trim"), .void, [⟨(.ref (.str .param)), (name% "victim"), none⟩], [], (some trim_V_body)⟩

/-- `interface/string_trim.hxx:66-80`. -/
def trim_V_S : Fun :=
  ⟨(nat_lit 0), (name% "trim"), .void, [⟨(.ref (.str .param)), (name% "victim"), none⟩, ⟨(.str .param), (name% "spaces"), none⟩], [], (some trim_V_S_body)⟩

/-- `interface/string_trim.hxx:82-85`. -/
def trimAscii7WhiteSpace_S8 : Fun :=
  ⟨(nat_lit 0), (name% "trimAscii7WhiteSpace"), .void, [⟨(.ref (.str (.prim .char))), (name% "victim"), none⟩], [], (some trimAscii7WhiteSpace_S8_body)⟩

/-- `interface/string_trim.hxx:87-93`. -/
def trimWhiteSpace_S32 : Fun :=
  ⟨(nat_lit 0), (name% "trimWhiteSpace"), .void, [⟨(.ref (.str (.prim .c32))), (name% "victim"), none⟩], [], (some trimWhiteSpace_S32_body)⟩

/-- `interface/string_trim.hxx:95-100`. -/
def trimWhiteSpace_S16 : Fun :=
  ⟨(nat_lit 0), (name% "trimWhiteSpace"), .void, [⟨(.ref (.str (.prim .c16))), (name% "victim"), none⟩], [], (some trimWhiteSpace_S16_body)⟩

/-- `interface/string_trim.hxx:102-107`. -/
def trimWhiteSpace_S8 : Fun :=
  ⟨(nat_lit 0), (name% "trimWhiteSpace"), .void, [⟨(.ref (.str (.prim .char))), (name% "victim"), none⟩], [], (some trimWhiteSpace_S8_body)⟩

/-- `interface/string_splitjoin.hxx:59-109`. -/
def split_S : Fun :=
  ⟨(nat_lit 0), (name% "split"), (.vec (.str .param)), [⟨(.str .param), (name% "src"), none⟩, ⟨.param, (name% "delim"), none⟩], [], (some split_S_body)⟩

/-- `interface/string_splitjoin.hxx:116-145`. -/
def join : Fun :=
  ⟨(nat_lit 0), (name% "join"), (.str .param), [⟨(.vec (.str .param)), (name% "src"), none⟩, ⟨.param, (name% "delim"), none⟩], [], (some join_body)⟩

/-- The functions that all platforms have. -/
def funs : List Fun :=
  [construct,
   checkIf_E,
   checkIfNot_E,
   differs_Pred,
   validIf_E,
   validIfNot_E,
   isUtf8_S8_Pred,
   isUtf8_8_Pred,
   isUtf16_S16_Pred,
   isUtf16_16_Pred,
   isUcs2_S16_Pred,
   isUcs2_16_Pred,
   isUcs4_S32_Pred,
   isUcs4_32_Pred,
   isUnicodeAssigned_8,
   isUnicodeAssigned_16,
   isUnicodeAssigned_32,
   isUnicodePrivate_8,
   isUnicodePrivate_16,
   isUnicodePrivate_32,
   isControlChar_8,
   isControlChar_16,
   isControlChar_32,
   isWhitespaceChar_8,
   isWhitespaceChar_16,
   isWhitespaceChar_32,
   getUnicodeEncodableRangeFlag,
   getCharEncodableRangeFlags,
   getRangeFlag_8,
   getRangeFlag_16,
   charToEncodingTypeMask,
   isFirstHalfUtf16,
   isSecondHalfUtf16,
   rawDecodeUtf8_8_8,
   rawDecodeUtf8_8_8_8,
   rawDecodeUtf8_8_8_8_8,
   rawDecodeUtf8_8_8_8_8_8,
   rawDecodeUtf8_8_8_8_8_8_8,
   encodeUtf8,
   rawDecodeUtf16_16_16,
   rawEncodeUtf16,
   turkicToLower_32,
   toLower_32,
   decodeUtf8,
   construct_E,
   andIf_E,
   andIfNot_E,
   equals_Pred,
   apply_8,
   apply_16,
   apply_32,
   isUtf16Encodable,
   isUtf16EscapedRange_32,
   sequenceSizeCharStarts_8,
   isFirstHalfUtf16AsUtf8_8,
   isSecondHalfUtf16AsUtf8_8,
   isUtf8_8_Len_E_Pred,
   getUnicodeVersionSupported,
   isUtf8_S8_E_Pred,
   isUtf8_8_E_Pred,
   isUtf8_8_Len_Pred,
   isUtf16_S16_E_Pred,
   isUtf16_16_E_Pred,
   isUcs2_S16_E_Pred,
   isUcs2_16_E_Pred,
   isUcs4_S32_E_Pred,
   isUcs4_32_E_Pred,
   toUtf8_16,
   toUtf8_S16,
   toUtf8_32,
   toUtf8_S32,
   toUcs2_8,
   toUcs2_S8,
   toUcs2_32,
   toUcs2_S32,
   toUtf16_8,
   toUtf16_S8,
   toUtf16_32,
   toUtf16_S32,
   toUcs4_8,
   toUcs4_S8,
   toUcs4_16,
   toUcs4_S16,
   unicodeLength_S8,
   unicodeLength_8_Len,
   unicodeLength_S16,
   unicodeLength_16_Len,
   unicodeLength_S32,
   unicodeLength_32_Len,
   toUtf8_8_E,
   isTurkicLang_8,
   toLower_S8_8,
   toLower_S16_8,
   toLower_S32_8,
   trim_V,
   trim_V_S,
   trimAscii7WhiteSpace_S8,
   trimWhiteSpace_S32,
   trimWhiteSpace_S16,
   trimWhiteSpace_S8,
   split_S,
   join]

/-- The enumerators and the constant tables. -/
def globals (version : List Int) : Env :=
  [((name% "rangeTypeToRangeFlag"), (.arr (.enum (name% "RangeTypeFlags")) [1, 2, 4, 8, 16, 32])),
   ((name% "encodingTypeToEncodingFlag"), (.arr (.enum (name% "EncodingTypeFlags")) [0, 1, 2, 4, 8])),
   ((name% "supportedUnicodeVersion"), (.str .char version)),
   ((name% "kIsWhiteSpaceFlag"), (.int (.enum (name% "EncodingTypeFlags")) (8 : Nat))),
   ((name% "kIsControlFlag"), (.int (.enum (name% "EncodingTypeFlags")) (4 : Nat))),
   ((name% "kIsPrivateFlag"), (.int (.enum (name% "EncodingTypeFlags")) (2 : Nat))),
   ((name% "kIsAssignedFlag"), (.int (.enum (name% "EncodingTypeFlags")) (1 : Nat))),
   ((name% "kNoneFlag"), (.int (.enum (name% "EncodingTypeFlags")) (0 : Nat))),
   ((name% "k32BitFlags"), (.int (.enum (name% "RangeTypeFlags")) (16 : Nat))),
   ((name% "k31BitFlags"), (.int (.enum (name% "RangeTypeFlags")) (18 : Nat))),
   ((name% "k21BitUnicodeFlags"), (.int (.enum (name% "RangeTypeFlags")) (58 : Nat))),
   ((name% "k21BitFlags"), (.int (.enum (name% "RangeTypeFlags")) (26 : Nat))),
   ((name% "k16BitFlags"), (.int (.enum (name% "RangeTypeFlags")) (62 : Nat))),
   ((name% "k7BitFlags"), (.int (.enum (name% "RangeTypeFlags")) (63 : Nat))),
   ((name% "kInvalidRangeFlag"), (.int (.enum (name% "RangeTypeFlags")) (32768 : Nat))),
   ((name% "kUnicodeFlag"), (.int (.enum (name% "RangeTypeFlags")) (32 : Nat))),
   ((name% "kUcs4Flag"), (.int (.enum (name% "RangeTypeFlags")) (16 : Nat))),
   ((name% "kUtf16Flag"), (.int (.enum (name% "RangeTypeFlags")) (8 : Nat))),
   ((name% "kUcs2Flag"), (.int (.enum (name% "RangeTypeFlags")) (4 : Nat))),
   ((name% "kUtf8Flag"), (.int (.enum (name% "RangeTypeFlags")) (2 : Nat))),
   ((name% "kAsciiFlag"), (.int (.enum (name% "RangeTypeFlags")) (1 : Nat))),
   ((name% "kNoFlag"), (.int (.enum (name% "RangeTypeFlags")) (0 : Nat))),
   ((name% "kSrcCP1250"), (.int (.enum (name% "SourceEncoding")) (2 : Nat))),
   ((name% "kSrcCP1252"), (.int (.enum (name% "SourceEncoding")) (1 : Nat))),
   ((name% "kSrcUnicode"), (.int (.enum (name% "SourceEncoding")) (0 : Nat))),
   ((name% "kFirstInvalidEncoding"), (.int (.enum (name% "EncodingType")) (5 : Nat))),
   ((name% "kIsWhitespace"), (.int (.enum (name% "EncodingType")) (4 : Nat))),
   ((name% "kIsControl"), (.int (.enum (name% "EncodingType")) (3 : Nat))),
   ((name% "kIsPrivate"), (.int (.enum (name% "EncodingType")) (2 : Nat))),
   ((name% "kIsAssigned"), (.int (.enum (name% "EncodingType")) (1 : Nat))),
   ((name% "kIsNone"), (.int (.enum (name% "EncodingType")) (0 : Nat))),
   ((name% "kFirstInvalidRange"), (.int (.enum (name% "RangeType")) (6 : Nat))),
   ((name% "kUnicode"), (.int (.enum (name% "RangeType")) (5 : Nat))),
   ((name% "kUcs4"), (.int (.enum (name% "RangeType")) (4 : Nat))),
   ((name% "kUtf16"), (.int (.enum (name% "RangeType")) (3 : Nat))),
   ((name% "kUcs2"), (.int (.enum (name% "RangeType")) (2 : Nat))),
   ((name% "kUtf8"), (.int (.enum (name% "RangeType")) (1 : Nat))),
   ((name% "kAscii"), (.int (.enum (name% "RangeType")) (0 : Nat)))]

/-- `interface/string.hxx`: the member variables of `EncodingCheckPredicate`. -/
def classes : List (Nat × List (Nat × Ty)) :=
  [((name% "EncodingCheckPredicate"), [((name% "m_mask"), .uint), ((name% "m_value"), .uint)])]

/-- `interface/string.hxx:484-487`. -/
def isUtf8_W_w16_body : Stmt :=
  (.seq (.ret (.call (name% "isUtf16") (.cons (.reinterpret (.ptr (.prim .c16)) (.var (name% "test"))) (.cons (.var (name% "kUtf8")) .nil))))
  .skip)

/-- `interface/string.hxx:488`. -/
def isUtf8_SW_w16_body : Stmt :=
  (.seq (.ret (.call (name% "isUtf8") (.cons (.method (name% "test") (name% "c_str") .nil) .nil)))
  .skip)

/-- `interface/string.hxx:490-493`. -/
def isUtf16_W_w16_body : Stmt :=
  (.seq (.ret (.call (name% "isUtf16") (.cons (.reinterpret (.ptr (.prim .c16)) (.var (name% "test"))) (.cons (.var (name% "kUtf8")) .nil))))
  .skip)

/-- `interface/string.hxx:494`. -/
def isUtf16_SW_w16_body : Stmt :=
  (.seq (.ret (.call (name% "isUtf16") (.cons (.method (name% "test") (name% "c_str") .nil) .nil)))
  .skip)

/-- `interface/string.hxx:496-499`. -/
def isUcs2_W_w16_body : Stmt :=
  (.seq (.ret (.call (name% "isUtf16") (.cons (.reinterpret (.ptr (.prim .c16)) (.var (name% "test"))) (.cons (.var (name% "kUcs2")) .nil))))
  .skip)

/-- `interface/string.hxx:500`. -/
def isUcs2_SW_w16_body : Stmt :=
  (.seq (.ret (.call (name% "isUcs2") (.cons (.method (name% "test") (name% "c_str") .nil) .nil)))
  .skip)

/-- `interface/string.hxx:502-505`. -/
def isUcs4_W_w16_body : Stmt :=
  (.seq (.ret (.call (name% "isUtf16") (.cons (.reinterpret (.ptr (.prim .c16)) (.var (name% "test"))) (.cons (.var (name% "kUcs4")) .nil))))
  .skip)

/-- `interface/string.hxx:506`. -/
def isUcs4_SW_w16_body : Stmt :=
  (.seq (.ret (.call (name% "isUcs4") (.cons (.method (name% "test") (name% "c_str") .nil) .nil)))
  .skip)

/-- `interface/string.hxx:508-511`. -/
def isWstring_S8_w16_body : Stmt :=
  (.seq (.ret (.call (name% "isUtf8") (.cons (.var (name% "test")) (.cons (.var (name% "kUtf16")) .nil))))
  .skip)

/-- `interface/string.hxx:513-516`. -/
def isWstring_8_w16_body : Stmt :=
  (.seq (.ret (.call (name% "isUtf8") (.cons (.var (name% "test")) (.cons (.var (name% "kUtf16")) .nil))))
  .skip)

/-- `interface/string.hxx:518-521`. -/
def isWstring_S16_w16_body : Stmt :=
  (.seq (.ret (.call (name% "isUtf16") (.cons (.var (name% "test")) .nil)))
  .skip)

/-- `interface/string.hxx:530-533`. -/
def isWstring_16_w16_body : Stmt :=
  (.seq (.ret (.call (name% "isUtf16") (.cons (.var (name% "test")) .nil)))
  .skip)

/-- `interface/string.hxx:535-538`. -/
def isWstring_S32_w16_body : Stmt :=
  (.seq (.ret (.call (name% "isUcs4") (.cons (.var (name% "test")) (.cons (.var (name% "kUtf16")) .nil))))
  .skip)

/-- `interface/string.hxx:540-543`. -/
def isWstring_32_w16_body : Stmt :=
  (.seq (.ret (.call (name% "isUcs4") (.cons (.var (name% "test")) (.cons (.var (name% "kUtf16")) .nil))))
  .skip)

/-- `interface/string.hxx:659-660`. -/
def toUtf8_W_w16_body : Stmt :=
  (.seq (.ret (.call (name% "toUtf8") (.cons (.reinterpret (.ptr (.prim .c16)) (.var (name% "src"))) .nil)))
  .skip)

/-- `interface/string.hxx:662-663`. -/
def toUtf8_SW_w16_body : Stmt :=
  (.seq (.ret (.call (name% "toUtf8") (.cons (.method (name% "src") (name% "c_str") .nil) .nil)))
  .skip)

/-- `interface/string.hxx:665-676`. -/
def toUtf16_W_w16_body : Stmt :=
  (.seq (.decl (.ptr (.prim .c16)) (name% "redirect") (.reinterpret (.ptr (.prim .c16)) (.var (name% "src"))))
  (.seq (.ite (.call (name% "isUtf16") (.cons (.var (name% "redirect")) .nil))
    (.block
     (.seq (.ret (.make (.str (.prim .c16)) (.cons (.var (name% "redirect")) .nil)))
     .skip))
    (.block
     (.seq (.ret (.make (.str (.prim .c16)) .nil))
     .skip)))
  .skip))

/-- `interface/string.hxx:678-679`. -/
def toUtf16_SW_w16_body : Stmt :=
  (.seq (.ret (.call (name% "toUtf16") (.cons (.method (name% "src") (name% "c_str") .nil) .nil)))
  .skip)

/-- `interface/string.hxx:681-692`. -/
def toUcs2_W_w16_body : Stmt :=
  (.seq (.decl (.ptr (.prim .c16)) (name% "redirect") (.reinterpret (.ptr (.prim .c16)) (.var (name% "src"))))
  (.seq (.ite (.call (name% "isUcs2") (.cons (.var (name% "redirect")) .nil))
    (.block
     (.seq (.ret (.make (.str (.prim .c16)) (.cons (.var (name% "redirect")) .nil)))
     .skip))
    (.block
     (.seq (.ret (.make (.str (.prim .c16)) .nil))
     .skip)))
  .skip))

/-- `interface/string.hxx:694-695`. -/
def toUcs2_SW_w16_body : Stmt :=
  (.seq (.ret (.call (name% "toUcs2") (.cons (.method (name% "src") (name% "c_str") .nil) .nil)))
  .skip)

/-- `interface/string.hxx:697-698`. -/
def toUcs4_W_w16_body : Stmt :=
  (.seq (.ret (.call (name% "toUcs4") (.cons (.reinterpret (.ptr (.prim .c16)) (.var (name% "src"))) .nil)))
  .skip)

/-- `interface/string.hxx:700-701`. -/
def toUcs4_SW_w16_body : Stmt :=
  (.seq (.ret (.call (name% "toUcs4") (.cons (.method (name% "src") (name% "c_str") .nil) .nil)))
  .skip)

/-- `interface/string.hxx:703-706`. -/
def toWstring_8_w16_body : Stmt :=
  (.seq (.ret (.make (.str (.prim .wchar)) (.cons (.reinterpret (.ptr (.prim .wchar)) (.valueMethod (.call (name% "toUtf16") (.cons (.var (name% "src")) .nil)) (name% "c_str") .nil)) .nil)))
  .skip)

/-- `interface/string.hxx:707-710`. -/
def toWstring_S8_w16_body : Stmt :=
  (.seq (.ret (.call (name% "toWstring") (.cons (.method (name% "src") (name% "c_str") .nil) .nil)))
  .skip)

/-- `interface/string.hxx:712-722`. -/
def toWstring_16_w16_body : Stmt :=
  (.seq (.ite (.call (name% "isUtf16") (.cons (.var (name% "src")) .nil))
    (.block
     (.seq (.ret (.make (.str (.prim .wchar)) (.cons (.reinterpret (.ptr (.prim .wchar)) (.var (name% "src"))) .nil)))
     .skip))
    (.block
     (.seq (.ret (.make (.str (.prim .wchar)) .nil))
     .skip)))
  .skip)

/-- `interface/string.hxx:723-726`. -/
def toWstring_S16_w16_body : Stmt :=
  (.seq (.ret (.call (name% "toWstring") (.cons (.method (name% "src") (name% "c_str") .nil) .nil)))
  .skip)

/-- `interface/string.hxx:734-737`. -/
def toWstring_32_w16_body : Stmt :=
  (.seq (.ret (.make (.str (.prim .wchar)) (.cons (.reinterpret (.ptr (.prim .wchar)) (.valueMethod (.call (name% "toUtf16") (.cons (.var (name% "src")) .nil)) (name% "c_str") .nil)) .nil)))
  .skip)

/-- `interface/string.hxx:738-741`. -/
def toWstring_S32_w16_body : Stmt :=
  (.seq (.ret (.call (name% "toWstring") (.cons (.method (name% "src") (name% "c_str") .nil) .nil)))
  .skip)

/-- `interface/string.hxx:479-543`. -/
def items16_0 : List Item :=
  [.func ⟨(nat_lit 0), (name% "isUtf8"), (.prim .bool), [⟨(.ptr (.prim .wchar)), (name% "test"), none⟩], [], (some isUtf8_W_w16_body)⟩,
   .func ⟨(nat_lit 0), (name% "isUtf8"), (.prim .bool), [⟨(.str (.prim .wchar)), (name% "test"), none⟩], [], (some isUtf8_SW_w16_body)⟩,
   .func ⟨(nat_lit 0), (name% "isUtf16"), (.prim .bool), [⟨(.ptr (.prim .wchar)), (name% "test"), none⟩], [], (some isUtf16_W_w16_body)⟩,
   .func ⟨(nat_lit 0), (name% "isUtf16"), (.prim .bool), [⟨(.str (.prim .wchar)), (name% "test"), none⟩], [], (some isUtf16_SW_w16_body)⟩,
   .func ⟨(nat_lit 0), (name% "isUcs2"), (.prim .bool), [⟨(.ptr (.prim .wchar)), (name% "test"), none⟩], [], (some isUcs2_W_w16_body)⟩,
   .func ⟨(nat_lit 0), (name% "isUcs2"), (.prim .bool), [⟨(.str (.prim .wchar)), (name% "test"), none⟩], [], (some isUcs2_SW_w16_body)⟩,
   .func ⟨(nat_lit 0), (name% "isUcs4"), (.prim .bool), [⟨(.ptr (.prim .wchar)), (name% "test"), none⟩], [], (some isUcs4_W_w16_body)⟩,
   .func ⟨(nat_lit 0), (name% "isUcs4"), (.prim .bool), [⟨(.str (.prim .wchar)), (name% "test"), none⟩], [], (some isUcs4_SW_w16_body)⟩,
   .func ⟨(nat_lit 0), (name% "isWstring"), (.prim .bool), [⟨(.str (.prim .char)), (name% "test"), none⟩], [], (some isWstring_S8_w16_body)⟩,
   .func ⟨(nat_lit 0), (name% "isWstring"), (.prim .bool), [⟨(.ptr (.prim .char)), (name% "test"), none⟩], [], (some isWstring_8_w16_body)⟩,
   .func ⟨(nat_lit 0), (name% "isWstring"), (.prim .bool), [⟨(.str (.prim .c16)), (name% "test"), none⟩], [], (some isWstring_S16_w16_body)⟩,
   .func ⟨(nat_lit 0), (name% "isWstring"), (.prim .bool), [⟨(.ptr (.prim .c16)), (name% "test"), none⟩], [], (some isWstring_16_w16_body)⟩,
   .func ⟨(nat_lit 0), (name% "isWstring"), (.prim .bool), [⟨(.str (.prim .c32)), (name% "test"), none⟩], [], (some isWstring_S32_w16_body)⟩,
   .func ⟨(nat_lit 0), (name% "isWstring"), (.prim .bool), [⟨(.ptr (.prim .c32)), (name% "test"), none⟩], [], (some isWstring_32_w16_body)⟩]

/-- `interface/string.hxx:544-544`. -/
def items16_1 : List Item :=
  []

/-- `interface/string.hxx:655-722`. -/
def items16_2 : List Item :=
  [.func ⟨(nat_lit 0), (name% "toUtf8"), (.str (.prim .char)), [⟨(.ptr (.prim .wchar)), (name% "src"), none⟩], [], (some toUtf8_W_w16_body)⟩,
   .func ⟨(nat_lit 0), (name% "toUtf8"), (.str (.prim .char)), [⟨(.str (.prim .wchar)), (name% "src"), none⟩], [], (some toUtf8_SW_w16_body)⟩,
   .func ⟨(nat_lit 0), (name% "toUtf16"), (.str (.prim .c16)), [⟨(.ptr (.prim .wchar)), (name% "src"), none⟩], [], (some toUtf16_W_w16_body)⟩,
   .func ⟨(nat_lit 0), (name% "toUtf16"), (.str (.prim .c16)), [⟨(.str (.prim .wchar)), (name% "src"), none⟩], [], (some toUtf16_SW_w16_body)⟩,
   .func ⟨(nat_lit 0), (name% "toUcs2"), (.str (.prim .c16)), [⟨(.ptr (.prim .wchar)), (name% "src"), none⟩], [], (some toUcs2_W_w16_body)⟩,
   .func ⟨(nat_lit 0), (name% "toUcs2"), (.str (.prim .c16)), [⟨(.str (.prim .wchar)), (name% "src"), none⟩], [], (some toUcs2_SW_w16_body)⟩,
   .func ⟨(nat_lit 0), (name% "toUcs4"), (.str (.prim .c32)), [⟨(.ptr (.prim .wchar)), (name% "src"), none⟩], [], (some toUcs4_W_w16_body)⟩,
   .func ⟨(nat_lit 0), (name% "toUcs4"), (.str (.prim .c32)), [⟨(.str (.prim .wchar)), (name% "src"), none⟩], [], (some toUcs4_SW_w16_body)⟩,
   .func ⟨(nat_lit 0), (name% "toWstring"), (.str (.prim .wchar)), [⟨(.ptr (.prim .char)), (name% "src"), none⟩], [], (some toWstring_8_w16_body)⟩,
   .func ⟨(nat_lit 0), (name% "toWstring"), (.str (.prim .wchar)), [⟨(.str (.prim .char)), (name% "src"), none⟩], [], (some toWstring_S8_w16_body)⟩,
   .func ⟨(nat_lit 0), (name% "toWstring"), (.str (.prim .wchar)), [⟨(.ptr (.prim .c16)), (name% "src"), none⟩], [], (some toWstring_16_w16_body)⟩]

/-- `interface/string.hxx:723-742`. -/
def items16_3 : List Item :=
  [.func ⟨(nat_lit 0), (name% "toWstring"), (.str (.prim .wchar)), [⟨(.str (.prim .c16)), (name% "src"), none⟩], [], (some toWstring_S16_w16_body)⟩,
   .func ⟨(nat_lit 0), (name% "toWstring"), (.str (.prim .wchar)), [⟨(.ptr (.prim .c32)), (name% "src"), none⟩], [], (some toWstring_32_w16_body)⟩,
   .func ⟨(nat_lit 0), (name% "toWstring"), (.str (.prim .wchar)), [⟨(.str (.prim .c32)), (name% "src"), none⟩], [], (some toWstring_S32_w16_body)⟩]

/-- The pieces together (`Source.wide16`). -/
def items16_ : List Item :=
  items16_0.append <|
  items16_1.append <|
  items16_2.append <|
  items16_3.append []

/-- `interface/string.hxx:484-487`. -/
def isUtf8_W_w16 : Fun :=
  ⟨(nat_lit 0), (name% "isUtf8"), (.prim .bool), [⟨(.ptr (.prim .wchar)), (name% "test"), none⟩], [], (some isUtf8_W_w16_body)⟩

/-- `interface/string.hxx:488`. -/
def isUtf8_SW_w16 : Fun :=
  ⟨(nat_lit 0), (name% "isUtf8"), (.prim .bool), [⟨(.str (.prim .wchar)), (name% "test"), none⟩], [], (some isUtf8_SW_w16_body)⟩

/-- `interface/string.hxx:490-493`. -/
def isUtf16_W_w16 : Fun :=
  ⟨(nat_lit 0), (name% "isUtf16"), (.prim .bool), [⟨(.ptr (.prim .wchar)), (name% "test"), none⟩], [], (some isUtf16_W_w16_body)⟩

/-- `interface/string.hxx:494`. -/
def isUtf16_SW_w16 : Fun :=
  ⟨(nat_lit 0), (name% "isUtf16"), (.prim .bool), [⟨(.str (.prim .wchar)), (name% "test"), none⟩], [], (some isUtf16_SW_w16_body)⟩

/-- `interface/string.hxx:496-499`. -/
def isUcs2_W_w16 : Fun :=
  ⟨(nat_lit 0), (name% "isUcs2"), (.prim .bool), [⟨(.ptr (.prim .wchar)), (name% "test"), none⟩], [], (some isUcs2_W_w16_body)⟩

/-- `interface/string.hxx:500`. -/
def isUcs2_SW_w16 : Fun :=
  ⟨(nat_lit 0), (name% "isUcs2"), (.prim .bool), [⟨(.str (.prim .wchar)), (name% "test"), none⟩], [], (some isUcs2_SW_w16_body)⟩

/-- `interface/string.hxx:502-505`. -/
def isUcs4_W_w16 : Fun :=
  ⟨(nat_lit 0), (name% "isUcs4"), (.prim .bool), [⟨(.ptr (.prim .wchar)), (name% "test"), none⟩], [], (some isUcs4_W_w16_body)⟩

/-- `interface/string.hxx:506`. -/
def isUcs4_SW_w16 : Fun :=
  ⟨(nat_lit 0), (name% "isUcs4"), (.prim .bool), [⟨(.str (.prim .wchar)), (name% "test"), none⟩], [], (some isUcs4_SW_w16_body)⟩

/-- `interface/string.hxx:508-511`. -/
def isWstring_S8_w16 : Fun :=
  ⟨(nat_lit 0), (name% "isWstring"), (.prim .bool), [⟨(.str (.prim .char)), (name% "test"), none⟩], [], (some isWstring_S8_w16_body)⟩

/-- `interface/string.hxx:513-516`. -/
def isWstring_8_w16 : Fun :=
  ⟨(nat_lit 0), (name% "isWstring"), (.prim .bool), [⟨(.ptr (.prim .char)), (name% "test"), none⟩], [], (some isWstring_8_w16_body)⟩

/-- `interface/string.hxx:518-521`. -/
def isWstring_S16_w16 : Fun :=
  ⟨(nat_lit 0), (name% "isWstring"), (.prim .bool), [⟨(.str (.prim .c16)), (name% "test"), none⟩], [], (some isWstring_S16_w16_body)⟩

/-- `interface/string.hxx:530-533`. -/
def isWstring_16_w16 : Fun :=
  ⟨(nat_lit 0), (name% "isWstring"), (.prim .bool), [⟨(.ptr (.prim .c16)), (name% "test"), none⟩], [], (some isWstring_16_w16_body)⟩

/-- `interface/string.hxx:535-538`. -/
def isWstring_S32_w16 : Fun :=
  ⟨(nat_lit 0), (name% "isWstring"), (.prim .bool), [⟨(.str (.prim .c32)), (name% "test"), none⟩], [], (some isWstring_S32_w16_body)⟩

/-- `interface/string.hxx:540-543`. -/
def isWstring_32_w16 : Fun :=
  ⟨(nat_lit 0), (name% "isWstring"), (.prim .bool), [⟨(.ptr (.prim .c32)), (name% "test"), none⟩], [], (some isWstring_32_w16_body)⟩

/-- `interface/string.hxx:659-660`. -/
def toUtf8_W_w16 : Fun :=
  ⟨(nat_lit 0), (name% "toUtf8"), (.str (.prim .char)), [⟨(.ptr (.prim .wchar)), (name% "src"), none⟩], [], (some toUtf8_W_w16_body)⟩

/-- `interface/string.hxx:662-663`. -/
def toUtf8_SW_w16 : Fun :=
  ⟨(nat_lit 0), (name% "toUtf8"), (.str (.prim .char)), [⟨(.str (.prim .wchar)), (name% "src"), none⟩], [], (some toUtf8_SW_w16_body)⟩

/-- `interface/string.hxx:665-676`. -/
def toUtf16_W_w16 : Fun :=
  ⟨(nat_lit 0), (name% "toUtf16"), (.str (.prim .c16)), [⟨(.ptr (.prim .wchar)), (name% "src"), none⟩], [], (some toUtf16_W_w16_body)⟩

/-- `interface/string.hxx:678-679`. -/
def toUtf16_SW_w16 : Fun :=
  ⟨(nat_lit 0), (name% "toUtf16"), (.str (.prim .c16)), [⟨(.str (.prim .wchar)), (name% "src"), none⟩], [], (some toUtf16_SW_w16_body)⟩

/-- `interface/string.hxx:681-692`. -/
def toUcs2_W_w16 : Fun :=
  ⟨(nat_lit 0), (name% "toUcs2"), (.str (.prim .c16)), [⟨(.ptr (.prim .wchar)), (name% "src"), none⟩], [], (some toUcs2_W_w16_body)⟩

/-- `interface/string.hxx:694-695`. -/
def toUcs2_SW_w16 : Fun :=
  ⟨(nat_lit 0), (name% "toUcs2"), (.str (.prim .c16)), [⟨(.str (.prim .wchar)), (name% "src"), none⟩], [], (some toUcs2_SW_w16_body)⟩

/-- `interface/string.hxx:697-698`. -/
def toUcs4_W_w16 : Fun :=
  ⟨(nat_lit 0), (name% "toUcs4"), (.str (.prim .c32)), [⟨(.ptr (.prim .wchar)), (name% "src"), none⟩], [], (some toUcs4_W_w16_body)⟩

/-- `interface/string.hxx:700-701`. -/
def toUcs4_SW_w16 : Fun :=
  ⟨(nat_lit 0), (name% "toUcs4"), (.str (.prim .c32)), [⟨(.str (.prim .wchar)), (name% "src"), none⟩], [], (some toUcs4_SW_w16_body)⟩

/-- `interface/string.hxx:703-706`. -/
def toWstring_8_w16 : Fun :=
  ⟨(nat_lit 0), (name% "toWstring"), (.str (.prim .wchar)), [⟨(.ptr (.prim .char)), (name% "src"), none⟩], [], (some toWstring_8_w16_body)⟩

/-- `interface/string.hxx:707-710`. -/
def toWstring_S8_w16 : Fun :=
  ⟨(nat_lit 0), (name% "toWstring"), (.str (.prim .wchar)), [⟨(.str (.prim .char)), (name% "src"), none⟩], [], (some toWstring_S8_w16_body)⟩

/-- `interface/string.hxx:712-722`. -/
def toWstring_16_w16 : Fun :=
  ⟨(nat_lit 0), (name% "toWstring"), (.str (.prim .wchar)), [⟨(.ptr (.prim .c16)), (name% "src"), none⟩], [], (some toWstring_16_w16_body)⟩

/-- `interface/string.hxx:723-726`. -/
def toWstring_S16_w16 : Fun :=
  ⟨(nat_lit 0), (name% "toWstring"), (.str (.prim .wchar)), [⟨(.str (.prim .c16)), (name% "src"), none⟩], [], (some toWstring_S16_w16_body)⟩

/-- `interface/string.hxx:734-737`. -/
def toWstring_32_w16 : Fun :=
  ⟨(nat_lit 0), (name% "toWstring"), (.str (.prim .wchar)), [⟨(.ptr (.prim .c32)), (name% "src"), none⟩], [], (some toWstring_32_w16_body)⟩

/-- `interface/string.hxx:738-741`. -/
def toWstring_S32_w16 : Fun :=
  ⟨(nat_lit 0), (name% "toWstring"), (.str (.prim .wchar)), [⟨(.str (.prim .c32)), (name% "src"), none⟩], [], (some toWstring_S32_w16_body)⟩

/-- The functions for a `wchar_t` of 16 bits. -/
def funs16 : List Fun :=
  [isUtf8_W_w16,
   isUtf8_SW_w16,
   isUtf16_W_w16,
   isUtf16_SW_w16,
   isUcs2_W_w16,
   isUcs2_SW_w16,
   isUcs4_W_w16,
   isUcs4_SW_w16,
   isWstring_S8_w16,
   isWstring_8_w16,
   isWstring_S16_w16,
   isWstring_16_w16,
   isWstring_S32_w16,
   isWstring_32_w16,
   toUtf8_W_w16,
   toUtf8_SW_w16,
   toUtf16_W_w16,
   toUtf16_SW_w16,
   toUcs2_W_w16,
   toUcs2_SW_w16,
   toUcs4_W_w16,
   toUcs4_SW_w16,
   toWstring_8_w16,
   toWstring_S8_w16,
   toWstring_16_w16,
   toWstring_S16_w16,
   toWstring_32_w16,
   toWstring_S32_w16]

/-- `interface/string.hxx:871-877`. -/
def isUtf8_W_w32_body : Stmt :=
  (.seq (.ret (.call (name% "isUcs4") (.cons (.reinterpret (.ptr (.prim .c32)) (.var (name% "test"))) (.cons (.var (name% "kUtf16")) .nil))))
  .skip)

/-- `interface/string.hxx:878`. -/
def isUtf8_SW_w32_body : Stmt :=
  (.seq (.ret (.call (name% "isUtf8") (.cons (.method (name% "test") (name% "c_str") .nil) .nil)))
  .skip)

/-- `interface/string.hxx:880-883`. -/
def isUtf16_W_w32_body : Stmt :=
  (.seq (.ret (.call (name% "isUcs4") (.cons (.reinterpret (.ptr (.prim .c32)) (.var (name% "test"))) (.cons (.var (name% "kUtf16")) .nil))))
  .skip)

/-- `interface/string.hxx:884`. -/
def isUtf16_SW_w32_body : Stmt :=
  (.seq (.ret (.call (name% "isUtf16") (.cons (.method (name% "test") (name% "c_str") .nil) .nil)))
  .skip)

/-- `interface/string.hxx:886-889`. -/
def isUcs2_W_w32_body : Stmt :=
  (.seq (.ret (.call (name% "isUcs4") (.cons (.reinterpret (.ptr (.prim .c32)) (.var (name% "test"))) (.cons (.var (name% "kUcs2")) .nil))))
  .skip)

/-- `interface/string.hxx:890`. -/
def isUcs2_SW_w32_body : Stmt :=
  (.seq (.ret (.call (name% "isUcs2") (.cons (.method (name% "test") (name% "c_str") .nil) .nil)))
  .skip)

/-- `interface/string.hxx:892-898`. -/
def isUcs4_W_w32_body : Stmt :=
  (.seq (.ret (.call (name% "isUcs4") (.cons (.reinterpret (.ptr (.prim .c32)) (.var (name% "test"))) (.cons (.var (name% "kUtf16")) .nil))))
  .skip)

/-- `interface/string.hxx:899`. -/
def isUcs4_SW_w32_body : Stmt :=
  (.seq (.ret (.call (name% "isUcs4") (.cons (.method (name% "test") (name% "c_str") .nil) .nil)))
  .skip)

/-- `interface/string.hxx:901-904`. -/
def isWstring_S8_w32_body : Stmt :=
  (.seq (.ret (.call (name% "isUtf8") (.cons (.var (name% "test")) (.cons (.var (name% "kUtf16")) .nil))))
  .skip)

/-- `interface/string.hxx:906-909`. -/
def isWstring_8_w32_body : Stmt :=
  (.seq (.ret (.call (name% "isUtf8") (.cons (.var (name% "test")) (.cons (.var (name% "kUtf16")) .nil))))
  .skip)

/-- `interface/string.hxx:911-914`. -/
def isWstring_S16_w32_body : Stmt :=
  (.seq (.ret (.call (name% "isUtf16") (.cons (.var (name% "test")) (.cons (.var (name% "kUcs4")) .nil))))
  .skip)

/-- `interface/string.hxx:923-926`. -/
def isWstring_16_w32_body : Stmt :=
  (.seq (.ret (.call (name% "isUtf16") (.cons (.var (name% "test")) (.cons (.var (name% "kUcs4")) .nil))))
  .skip)

/-- `interface/string.hxx:928-931`. -/
def isWstring_S32_w32_body : Stmt :=
  (.seq (.ret (.call (name% "isUcs4") (.cons (.var (name% "test")) (.cons (.var (name% "kUtf16")) .nil))))
  .skip)

/-- `interface/string.hxx:933-936`. -/
def isWstring_32_w32_body : Stmt :=
  (.seq (.ret (.call (name% "isUcs4") (.cons (.var (name% "test")) (.cons (.var (name% "kUtf16")) .nil))))
  .skip)

/-- `interface/string.hxx:941-942`. -/
def toUtf8_W_w32_body : Stmt :=
  (.seq (.ret (.call (name% "toUtf8") (.cons (.reinterpret (.ptr (.prim .c32)) (.var (name% "src"))) .nil)))
  .skip)

/-- `interface/string.hxx:944-945`. -/
def toUtf8_SW_w32_body : Stmt :=
  (.seq (.ret (.call (name% "toUtf8") (.cons (.method (name% "src") (name% "c_str") .nil) .nil)))
  .skip)

/-- `interface/string.hxx:947-948`. -/
def toUtf16_W_w32_body : Stmt :=
  (.seq (.ret (.call (name% "toUtf16") (.cons (.reinterpret (.ptr (.prim .c32)) (.var (name% "src"))) .nil)))
  .skip)

/-- `interface/string.hxx:950-951`. -/
def toUtf16_SW_w32_body : Stmt :=
  (.seq (.ret (.call (name% "toUtf16") (.cons (.method (name% "src") (name% "c_str") .nil) .nil)))
  .skip)

/-- `interface/string.hxx:953-954`. -/
def toUcs2_W_w32_body : Stmt :=
  (.seq (.ret (.call (name% "toUcs2") (.cons (.reinterpret (.ptr (.prim .c32)) (.var (name% "src"))) .nil)))
  .skip)

/-- `interface/string.hxx:956-957`. -/
def toUcs2_SW_w32_body : Stmt :=
  (.seq (.ret (.call (name% "toUcs2") (.cons (.method (name% "src") (name% "c_str") .nil) .nil)))
  .skip)

/-- `interface/string.hxx:959-969`. -/
def toUcs4_W_w32_body : Stmt :=
  (.seq (.ite (.call (name% "isUcs4") (.cons (.reinterpret (.ptr (.prim .c32)) (.var (name% "src"))) (.cons (.var (name% "kUtf16")) .nil)))
    (.block
     (.seq (.ret (.make (.str (.prim .c32)) (.cons (.reinterpret (.ptr (.prim .c32)) (.var (name% "src"))) .nil)))
     .skip))
    (.block
     (.seq (.ret (.make (.str (.prim .c32)) .nil))
     .skip)))
  .skip)

/-- `interface/string.hxx:971-972`. -/
def toUcs4_SW_w32_body : Stmt :=
  (.seq (.ret (.call (name% "toUcs4") (.cons (.method (name% "src") (name% "c_str") .nil) .nil)))
  .skip)

/-- `interface/string.hxx:974-977`. -/
def toWstring_8_w32_body : Stmt :=
  (.seq (.ret (.make (.str (.prim .wchar)) (.cons (.reinterpret (.ptr (.prim .wchar)) (.valueMethod (.call (name% "toUcs4") (.cons (.var (name% "src")) .nil)) (name% "c_str") .nil)) .nil)))
  .skip)

/-- `interface/string.hxx:978-981`. -/
def toWstring_S8_w32_body : Stmt :=
  (.seq (.ret (.call (name% "toWstring") (.cons (.method (name% "src") (name% "c_str") .nil) .nil)))
  .skip)

/-- `interface/string.hxx:983-986`. -/
def toWstring_16_w32_body : Stmt :=
  (.seq (.ret (.make (.str (.prim .wchar)) (.cons (.reinterpret (.ptr (.prim .wchar)) (.valueMethod (.call (name% "toUcs4") (.cons (.var (name% "src")) .nil)) (name% "c_str") .nil)) .nil)))
  .skip)

/-- `interface/string.hxx:987-990`. -/
def toWstring_S16_w32_body : Stmt :=
  (.seq (.ret (.call (name% "toWstring") (.cons (.method (name% "src") (name% "c_str") .nil) .nil)))
  .skip)

/-- `interface/string.hxx:998-1008`. -/
def toWstring_32_w32_body : Stmt :=
  (.seq (.ite (.call (name% "isUcs4") (.cons (.var (name% "src")) (.cons (.var (name% "kUtf16")) .nil)))
    (.block
     (.seq (.ret (.make (.str (.prim .wchar)) (.cons (.reinterpret (.ptr (.prim .wchar)) (.var (name% "src"))) .nil)))
     .skip))
    (.block
     (.seq (.ret (.make (.str (.prim .wchar)) .nil))
     .skip)))
  .skip)

/-- `interface/string.hxx:1010-1013`. -/
def toWstring_S32_w32_body : Stmt :=
  (.seq (.ret (.call (name% "toWstring") (.cons (.method (name% "src") (name% "c_str") .nil) .nil)))
  .skip)

/-- `interface/string.hxx:866-914`. -/
def items32_0 : List Item :=
  [.func ⟨(nat_lit 0), (name% "isUtf8"), (.prim .bool), [⟨(.ptr (.prim .wchar)), (name% "test"), none⟩], [], (some isUtf8_W_w32_body)⟩,
   .func ⟨(nat_lit 0), (name% "isUtf8"), (.prim .bool), [⟨(.str (.prim .wchar)), (name% "test"), none⟩], [], (some isUtf8_SW_w32_body)⟩,
   .func ⟨(nat_lit 0), (name% "isUtf16"), (.prim .bool), [⟨(.ptr (.prim .wchar)), (name% "test"), none⟩], [], (some isUtf16_W_w32_body)⟩,
   .func ⟨(nat_lit 0), (name% "isUtf16"), (.prim .bool), [⟨(.str (.prim .wchar)), (name% "test"), none⟩], [], (some isUtf16_SW_w32_body)⟩,
   .func ⟨(nat_lit 0), (name% "isUcs2"), (.prim .bool), [⟨(.ptr (.prim .wchar)), (name% "test"), none⟩], [], (some isUcs2_W_w32_body)⟩,
   .func ⟨(nat_lit 0), (name% "isUcs2"), (.prim .bool), [⟨(.str (.prim .wchar)), (name% "test"), none⟩], [], (some isUcs2_SW_w32_body)⟩,
   .func ⟨(nat_lit 0), (name% "isUcs4"), (.prim .bool), [⟨(.ptr (.prim .wchar)), (name% "test"), none⟩], [], (some isUcs4_W_w32_body)⟩,
   .func ⟨(nat_lit 0), (name% "isUcs4"), (.prim .bool), [⟨(.str (.prim .wchar)), (name% "test"), none⟩], [], (some isUcs4_SW_w32_body)⟩,
   .func ⟨(nat_lit 0), (name% "isWstring"), (.prim .bool), [⟨(.str (.prim .char)), (name% "test"), none⟩], [], (some isWstring_S8_w32_body)⟩,
   .func ⟨(nat_lit 0), (name% "isWstring"), (.prim .bool), [⟨(.ptr (.prim .char)), (name% "test"), none⟩], [], (some isWstring_8_w32_body)⟩,
   .func ⟨(nat_lit 0), (name% "isWstring"), (.prim .bool), [⟨(.str (.prim .c16)), (name% "test"), none⟩], [], (some isWstring_S16_w32_body)⟩]

/-- `interface/string.hxx:915-977`. -/
def items32_1 : List Item :=
  [.func ⟨(nat_lit 0), (name% "isWstring"), (.prim .bool), [⟨(.ptr (.prim .c16)), (name% "test"), none⟩], [], (some isWstring_16_w32_body)⟩,
   .func ⟨(nat_lit 0), (name% "isWstring"), (.prim .bool), [⟨(.str (.prim .c32)), (name% "test"), none⟩], [], (some isWstring_S32_w32_body)⟩,
   .func ⟨(nat_lit 0), (name% "isWstring"), (.prim .bool), [⟨(.ptr (.prim .c32)), (name% "test"), none⟩], [], (some isWstring_32_w32_body)⟩,
   .func ⟨(nat_lit 0), (name% "toUtf8"), (.str (.prim .char)), [⟨(.ptr (.prim .wchar)), (name% "src"), none⟩], [], (some toUtf8_W_w32_body)⟩,
   .func ⟨(nat_lit 0), (name% "toUtf8"), (.str (.prim .char)), [⟨(.str (.prim .wchar)), (name% "src"), none⟩], [], (some toUtf8_SW_w32_body)⟩,
   .func ⟨(nat_lit 0), (name% "toUtf16"), (.str (.prim .c16)), [⟨(.ptr (.prim .wchar)), (name% "src"), none⟩], [], (some toUtf16_W_w32_body)⟩,
   .func ⟨(nat_lit 0), (name% "toUtf16"), (.str (.prim .c16)), [⟨(.str (.prim .wchar)), (name% "src"), none⟩], [], (some toUtf16_SW_w32_body)⟩,
   .func ⟨(nat_lit 0), (name% "toUcs2"), (.str (.prim .c16)), [⟨(.ptr (.prim .wchar)), (name% "src"), none⟩], [], (some toUcs2_W_w32_body)⟩,
   .func ⟨(nat_lit 0), (name% "toUcs2"), (.str (.prim .c16)), [⟨(.str (.prim .wchar)), (name% "src"), none⟩], [], (some toUcs2_SW_w32_body)⟩,
   .func ⟨(nat_lit 0), (name% "toUcs4"), (.str (.prim .c32)), [⟨(.ptr (.prim .wchar)), (name% "src"), none⟩], [], (some toUcs4_W_w32_body)⟩,
   .func ⟨(nat_lit 0), (name% "toUcs4"), (.str (.prim .c32)), [⟨(.str (.prim .wchar)), (name% "src"), none⟩], [], (some toUcs4_SW_w32_body)⟩,
   .func ⟨(nat_lit 0), (name% "toWstring"), (.str (.prim .wchar)), [⟨(.ptr (.prim .char)), (name% "src"), none⟩], [], (some toWstring_8_w32_body)⟩]

/-- `interface/string.hxx:978-1015`. -/
def items32_2 : List Item :=
  [.func ⟨(nat_lit 0), (name% "toWstring"), (.str (.prim .wchar)), [⟨(.str (.prim .char)), (name% "src"), none⟩], [], (some toWstring_S8_w32_body)⟩,
   .func ⟨(nat_lit 0), (name% "toWstring"), (.str (.prim .wchar)), [⟨(.ptr (.prim .c16)), (name% "src"), none⟩], [], (some toWstring_16_w32_body)⟩,
   .func ⟨(nat_lit 0), (name% "toWstring"), (.str (.prim .wchar)), [⟨(.str (.prim .c16)), (name% "src"), none⟩], [], (some toWstring_S16_w32_body)⟩,
   .func ⟨(nat_lit 0), (name% "toWstring"), (.str (.prim .wchar)), [⟨(.ptr (.prim .c32)), (name% "src"), none⟩], [], (some toWstring_32_w32_body)⟩,
   .func ⟨(nat_lit 0), (name% "toWstring"), (.str (.prim .wchar)), [⟨(.str (.prim .c32)), (name% "src"), none⟩], [], (some toWstring_S32_w32_body)⟩]

/-- The pieces together (`Source.wide32`). -/
def items32_ : List Item :=
  items32_0.append <|
  items32_1.append <|
  items32_2.append []

/-- `interface/string.hxx:871-877`. -/
def isUtf8_W_w32 : Fun :=
  ⟨(nat_lit 0), (name% "isUtf8"), (.prim .bool), [⟨(.ptr (.prim .wchar)), (name% "test"), none⟩], [], (some isUtf8_W_w32_body)⟩

/-- `interface/string.hxx:878`. -/
def isUtf8_SW_w32 : Fun :=
  ⟨(nat_lit 0), (name% "isUtf8"), (.prim .bool), [⟨(.str (.prim .wchar)), (name% "test"), none⟩], [], (some isUtf8_SW_w32_body)⟩

/-- `interface/string.hxx:880-883`. -/
def isUtf16_W_w32 : Fun :=
  ⟨(nat_lit 0), (name% "isUtf16"), (.prim .bool), [⟨(.ptr (.prim .wchar)), (name% "test"), none⟩], [], (some isUtf16_W_w32_body)⟩

/-- `interface/string.hxx:884`. -/
def isUtf16_SW_w32 : Fun :=
  ⟨(nat_lit 0), (name% "isUtf16"), (.prim .bool), [⟨(.str (.prim .wchar)), (name% "test"), none⟩], [], (some isUtf16_SW_w32_body)⟩

/-- `interface/string.hxx:886-889`. -/
def isUcs2_W_w32 : Fun :=
  ⟨(nat_lit 0), (name% "isUcs2"), (.prim .bool), [⟨(.ptr (.prim .wchar)), (name% "test"), none⟩], [], (some isUcs2_W_w32_body)⟩

/-- `interface/string.hxx:890`. -/
def isUcs2_SW_w32 : Fun :=
  ⟨(nat_lit 0), (name% "isUcs2"), (.prim .bool), [⟨(.str (.prim .wchar)), (name% "test"), none⟩], [], (some isUcs2_SW_w32_body)⟩

/-- `interface/string.hxx:892-898`. -/
def isUcs4_W_w32 : Fun :=
  ⟨(nat_lit 0), (name% "isUcs4"), (.prim .bool), [⟨(.ptr (.prim .wchar)), (name% "test"), none⟩], [], (some isUcs4_W_w32_body)⟩

/-- `interface/string.hxx:899`. -/
def isUcs4_SW_w32 : Fun :=
  ⟨(nat_lit 0), (name% "isUcs4"), (.prim .bool), [⟨(.str (.prim .wchar)), (name% "test"), none⟩], [], (some isUcs4_SW_w32_body)⟩

/-- `interface/string.hxx:901-904`. -/
def isWstring_S8_w32 : Fun :=
  ⟨(nat_lit 0), (name% "isWstring"), (.prim .bool), [⟨(.str (.prim .char)), (name% "test"), none⟩], [], (some isWstring_S8_w32_body)⟩

/-- `interface/string.hxx:906-909`. -/
def isWstring_8_w32 : Fun :=
  ⟨(nat_lit 0), (name% "isWstring"), (.prim .bool), [⟨(.ptr (.prim .char)), (name% "test"), none⟩], [], (some isWstring_8_w32_body)⟩

/-- `interface/string.hxx:911-914`. -/
def isWstring_S16_w32 : Fun :=
  ⟨(nat_lit 0), (name% "isWstring"), (.prim .bool), [⟨(.str (.prim .c16)), (name% "test"), none⟩], [], (some isWstring_S16_w32_body)⟩

/-- `interface/string.hxx:923-926`. -/
def isWstring_16_w32 : Fun :=
  ⟨(nat_lit 0), (name% "isWstring"), (.prim .bool), [⟨(.ptr (.prim .c16)), (name% "test"), none⟩], [], (some isWstring_16_w32_body)⟩

/-- `interface/string.hxx:928-931`. -/
def isWstring_S32_w32 : Fun :=
  ⟨(nat_lit 0), (name% "isWstring"), (.prim .bool), [⟨(.str (.prim .c32)), (name% "test"), none⟩], [], (some isWstring_S32_w32_body)⟩

/-- `interface/string.hxx:933-936`. -/
def isWstring_32_w32 : Fun :=
  ⟨(nat_lit 0), (name% "isWstring"), (.prim .bool), [⟨(.ptr (.prim .c32)), (name% "test"), none⟩], [], (some isWstring_32_w32_body)⟩

/-- `interface/string.hxx:941-942`. -/
def toUtf8_W_w32 : Fun :=
  ⟨(nat_lit 0), (name% "toUtf8"), (.str (.prim .char)), [⟨(.ptr (.prim .wchar)), (name% "src"), none⟩], [], (some toUtf8_W_w32_body)⟩

/-- `interface/string.hxx:944-945`. -/
def toUtf8_SW_w32 : Fun :=
  ⟨(nat_lit 0), (name% "toUtf8"), (.str (.prim .char)), [⟨(.str (.prim .wchar)), (name% "src"), none⟩], [], (some toUtf8_SW_w32_body)⟩

/-- `interface/string.hxx:947-948`. -/
def toUtf16_W_w32 : Fun :=
  ⟨(nat_lit 0), (name% "toUtf16"), (.str (.prim .c16)), [⟨(.ptr (.prim .wchar)), (name% "src"), none⟩], [], (some toUtf16_W_w32_body)⟩

/-- `interface/string.hxx:950-951`. -/
def toUtf16_SW_w32 : Fun :=
  ⟨(nat_lit 0), (name% "toUtf16"), (.str (.prim .c16)), [⟨(.str (.prim .wchar)), (name% "src"), none⟩], [], (some toUtf16_SW_w32_body)⟩

/-- `interface/string.hxx:953-954`. -/
def toUcs2_W_w32 : Fun :=
  ⟨(nat_lit 0), (name% "toUcs2"), (.str (.prim .c16)), [⟨(.ptr (.prim .wchar)), (name% "src"), none⟩], [], (some toUcs2_W_w32_body)⟩

/-- `interface/string.hxx:956-957`. -/
def toUcs2_SW_w32 : Fun :=
  ⟨(nat_lit 0), (name% "toUcs2"), (.str (.prim .c16)), [⟨(.str (.prim .wchar)), (name% "src"), none⟩], [], (some toUcs2_SW_w32_body)⟩

/-- `interface/string.hxx:959-969`. -/
def toUcs4_W_w32 : Fun :=
  ⟨(nat_lit 0), (name% "toUcs4"), (.str (.prim .c32)), [⟨(.ptr (.prim .wchar)), (name% "src"), none⟩], [], (some toUcs4_W_w32_body)⟩

/-- `interface/string.hxx:971-972`. -/
def toUcs4_SW_w32 : Fun :=
  ⟨(nat_lit 0), (name% "toUcs4"), (.str (.prim .c32)), [⟨(.str (.prim .wchar)), (name% "src"), none⟩], [], (some toUcs4_SW_w32_body)⟩

/-- `interface/string.hxx:974-977`. -/
def toWstring_8_w32 : Fun :=
  ⟨(nat_lit 0), (name% "toWstring"), (.str (.prim .wchar)), [⟨(.ptr (.prim .char)), (name% "src"), none⟩], [], (some toWstring_8_w32_body)⟩

/-- `interface/string.hxx:978-981`. -/
def toWstring_S8_w32 : Fun :=
  ⟨(nat_lit 0), (name% "toWstring"), (.str (.prim .wchar)), [⟨(.str (.prim .char)), (name% "src"), none⟩], [], (some toWstring_S8_w32_body)⟩

/-- `interface/string.hxx:983-986`. -/
def toWstring_16_w32 : Fun :=
  ⟨(nat_lit 0), (name% "toWstring"), (.str (.prim .wchar)), [⟨(.ptr (.prim .c16)), (name% "src"), none⟩], [], (some toWstring_16_w32_body)⟩

/-- `interface/string.hxx:987-990`. -/
def toWstring_S16_w32 : Fun :=
  ⟨(nat_lit 0), (name% "toWstring"), (.str (.prim .wchar)), [⟨(.str (.prim .c16)), (name% "src"), none⟩], [], (some toWstring_S16_w32_body)⟩

/-- `interface/string.hxx:998-1008`. -/
def toWstring_32_w32 : Fun :=
  ⟨(nat_lit 0), (name% "toWstring"), (.str (.prim .wchar)), [⟨(.ptr (.prim .c32)), (name% "src"), none⟩], [], (some toWstring_32_w32_body)⟩

/-- `interface/string.hxx:1010-1013`. -/
def toWstring_S32_w32 : Fun :=
  ⟨(nat_lit 0), (name% "toWstring"), (.str (.prim .wchar)), [⟨(.str (.prim .c32)), (name% "src"), none⟩], [], (some toWstring_S32_w32_body)⟩

/-- The functions for a `wchar_t` of 32 bits. -/
def funs32 : List Fun :=
  [isUtf8_W_w32,
   isUtf8_SW_w32,
   isUtf16_W_w32,
   isUtf16_SW_w32,
   isUcs2_W_w32,
   isUcs2_SW_w32,
   isUcs4_W_w32,
   isUcs4_SW_w32,
   isWstring_S8_w32,
   isWstring_8_w32,
   isWstring_S16_w32,
   isWstring_16_w32,
   isWstring_S32_w32,
   isWstring_32_w32,
   toUtf8_W_w32,
   toUtf8_SW_w32,
   toUtf16_W_w32,
   toUtf16_SW_w32,
   toUcs2_W_w32,
   toUcs2_SW_w32,
   toUcs4_W_w32,
   toUcs4_SW_w32,
   toWstring_8_w32,
   toWstring_S8_w32,
   toWstring_16_w32,
   toWstring_S16_w32,
   toWstring_32_w32,
   toWstring_S32_w32]

/-- The library with a `wchar_t` of 32 bits, or of 16. -/
def program (w32 : Bool) (version : List Int) : Program :=
  ⟨funs ++ (bif w32 then funs32 else funs16), globals version, classes, wideType w32⟩

end Ansak.Cpp.Ast
