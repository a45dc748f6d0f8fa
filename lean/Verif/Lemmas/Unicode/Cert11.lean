import Verif.Lemmas.Interval
import Verif.Model.Unicode.Bits11
import Verif.Spec.UnicodeData.V11

/-!
# The tables of `source/bits11` against its UnicodeData.txt

Cut points found by `tools/gen_tables.py`, checked here by the kernel.
-/

namespace Ansak.Unicode.Bits11

open CExpr

namespace Cert

/-- Cuts for `Spec.UnicodeData.V11.assigned1`. -/
def assigned1 : Part := (0xA4D, [
  0x2FF, 0x36F, 0x377, 0x378, 0x379, 0x37F, 0x383, 0x38A, 0x38B, 0x38C, 0x38D, 0x38F, 0x39F,
  0x3A1, 0x3A2, 0x3AF, 0x3FF, 0x4FF, 0x52F, 0x530, 0x53F, 0x54F, 0x556, 0x557, 0x558, 0x55F,
  0x57F, 0x58A, 0x58B, 0x58C, 0x58F, 0x590, 0x59F, 0x5BF, 0x5C7, 0x5CF, 0x5DF, 0x5EA, 0x5EE,
  0x5EF, 0x5F4, 0x5FF, 0x61C, 0x61D, 0x6FF, 0x70D, 0x70E, 0x70F, 0x73F, 0x74A, 0x74B, 0x74C,
  0x74F, 0x7AF, 0x7B1, 0x7BF, 0x7EF, 0x7FA, 0x7FB, 0x7FC, 0x7FF, 0x81F, 0x82D, 0x82F, 0x83E,
  0x83F, 0x84F, 0x85B, 0x85D, 0x85E, 0x85F, 0x86A, 0x86F, 0x87F, 0x88F, 0x89F, 0x8AF, 0x8B4,
  0x8B5, 0x8BD, 0x8BF, 0x8CF, 0x8D2, 0x8DF, 0x8FF, 0x97F, 0x983, 0x984, 0x98C, 0x98D, 0x98E,
  0x98F, 0x990, 0x991, 0x992, 0x99F, 0x9A8, 0x9A9, 0x9AF, 0x9B0, 0x9B1, 0x9B2, 0x9B3, 0x9B4,
  0x9B5, 0x9B9, 0x9BA, 0x9BB, 0x9BF, 0x9C4, 0x9C5, 0x9C6, 0x9C8, 0x9C9, 0x9CA, 0x9CE, 0x9CF,
  0x9D6, 0x9D7, 0x9DB, 0x9DC, 0x9DD, 0x9DE, 0x9DF, 0x9E3, 0x9E4, 0x9E5, 0x9EF, 0x9FE, 0x9FF,
  0xA00, 0xA03, 0xA04, 0xA0A, 0xA0E, 0xA0F, 0xA10, 0xA11, 0xA12, 0xA1F, 0xA28, 0xA29, 0xA2F,
  0xA30, 0xA31, 0xA33, 0xA34, 0xA36, 0xA37, 0xA39, 0xA3A, 0xA3B, 0xA3C, 0xA3D, 0xA3F, 0xA42,
  0xA43, 0xA44, 0xA45, 0xA46, 0xA48, 0xA49, 0xA4A, 0xA4D],
  Spec.UnicodeData.V11.assigned1)

/-- Cuts for `Spec.UnicodeData.V11.assigned2`. -/
def assigned2 : Part := (0xC10, [
  0xA4E, 0xA4F, 0xA50, 0xA51, 0xA52, 0xA53, 0xA54, 0xA55, 0xA56, 0xA57, 0xA58, 0xA5C, 0xA5D,
  0xA5E, 0xA5F, 0xA65, 0xA6F, 0xA76, 0xA7F, 0xA80, 0xA83, 0xA84, 0xA8D, 0xA8E, 0xA8F, 0xA91,
  0xA92, 0xA9F, 0xAA8, 0xAA9, 0xAAF, 0xAB0, 0xAB1, 0xAB3, 0xAB4, 0xAB9, 0xABA, 0xABB, 0xABF,
  0xAC5, 0xAC6, 0xAC9, 0xACA, 0xACD, 0xACF, 0xAD0, 0xADF, 0xAE3, 0xAE4, 0xAE5, 0xAEF, 0xAF1,
  0xAF8, 0xAFF, 0xB00, 0xB03, 0xB04, 0xB0C, 0xB0D, 0xB0E, 0xB0F, 0xB10, 0xB11, 0xB12, 0xB1F,
  0xB28, 0xB29, 0xB2F, 0xB30, 0xB31, 0xB33, 0xB34, 0xB39, 0xB3A, 0xB3B, 0xB3F, 0xB44, 0xB45,
  0xB46, 0xB48, 0xB49, 0xB4A, 0xB4D, 0xB4E, 0xB4F, 0xB55, 0xB57, 0xB5B, 0xB5D, 0xB5E, 0xB5F,
  0xB63, 0xB64, 0xB65, 0xB6F, 0xB77, 0xB7F, 0xB80, 0xB81, 0xB83, 0xB84, 0xB8A, 0xB8B, 0xB8C,
  0xB8D, 0xB8F, 0xB90, 0xB91, 0xB95, 0xB96, 0xB97, 0xB98, 0xB9A, 0xB9B, 0xB9C, 0xB9D, 0xB9F,
  0xBA2, 0xBA3, 0xBA4, 0xBA7, 0xBA8, 0xBA9, 0xBAA, 0xBAD, 0xBAE, 0xBAF, 0xBB9, 0xBBD, 0xBBF,
  0xBC2, 0xBC3, 0xBC4, 0xBC5, 0xBC8, 0xBC9, 0xBCD, 0xBCE, 0xBCF, 0xBD0, 0xBD6, 0xBD7, 0xBDF,
  0xBE5, 0xBEF, 0xBFA, 0xBFF, 0xC0C, 0xC0D, 0xC0F, 0xC10],
  Spec.UnicodeData.V11.assigned2)

/-- Cuts for `Spec.UnicodeData.V11.assigned3`. -/
def assigned3 : Part := (0xE97, [
  0xC11, 0xC1F, 0xC28, 0xC29, 0xC2F, 0xC39, 0xC3C, 0xC3F, 0xC44, 0xC45, 0xC48, 0xC49, 0xC4D,
  0xC4F, 0xC54, 0xC56, 0xC57, 0xC5A, 0xC5F, 0xC63, 0xC64, 0xC65, 0xC6F, 0xC77, 0xC7F, 0xC8C,
  0xC8D, 0xC8F, 0xC90, 0xC91, 0xC9F, 0xCA8, 0xCA9, 0xCAF, 0xCB3, 0xCB4, 0xCB9, 0xCBA, 0xCBB,
  0xCBF, 0xCC4, 0xCC5, 0xCC8, 0xCC9, 0xCCD, 0xCCF, 0xCD4, 0xCD6, 0xCDD, 0xCDE, 0xCDF, 0xCE3,
  0xCE4, 0xCE5, 0xCEF, 0xCF0, 0xCF2, 0xCFF, 0xD03, 0xD04, 0xD0C, 0xD0D, 0xD0F, 0xD10, 0xD11,
  0xD1F, 0xD3F, 0xD44, 0xD45, 0xD48, 0xD49, 0xD4F, 0xD53, 0xD5F, 0xD63, 0xD64, 0xD65, 0xD6F,
  0xD7F, 0xD81, 0xD83, 0xD84, 0xD8F, 0xD96, 0xD99, 0xD9F, 0xDAF, 0xDB1, 0xDB2, 0xDBB, 0xDBC,
  0xDBD, 0xDBF, 0xDC6, 0xDC9, 0xDCA, 0xDCE, 0xDCF, 0xDD4, 0xDD5, 0xDD6, 0xDD7, 0xDDF, 0xDE5,
  0xDEF, 0xDF1, 0xDF4, 0xDFF, 0xE00, 0xE0F, 0xE2F, 0xE3A, 0xE3E, 0xE3F, 0xE4F, 0xE5B, 0xE5F,
  0xE6F, 0xE7F, 0xE80, 0xE81, 0xE82, 0xE83, 0xE84, 0xE86, 0xE87, 0xE88, 0xE89, 0xE8A, 0xE8C,
  0xE8D, 0xE8F, 0xE93, 0xE97],
  Spec.UnicodeData.V11.assigned3)

/-- Cuts for `Spec.UnicodeData.V11.assigned4`. -/
def assigned4 : Part := (0x1773, [
  0xE98, 0xE9F, 0xEA0, 0xEA3, 0xEA4, 0xEA5, 0xEA6, 0xEA7, 0xEA8, 0xEA9, 0xEAB, 0xEAC, 0xEAF,
  0xEB9, 0xEBA, 0xEBD, 0xEBF, 0xEC4, 0xEC5, 0xEC6, 0xEC7, 0xECD, 0xECF, 0xED9, 0xEDA, 0xEDB,
  0xEDF, 0xEEF, 0xEFF, 0xF3F, 0xF47, 0xF48, 0xF4F, 0xF5F, 0xF6C, 0xF6F, 0xF70, 0xF7F, 0xF8F,
  0xF97, 0xF98, 0xF9F, 0xFAF, 0xFBC, 0xFBD, 0xFBF, 0xFCC, 0xFCD, 0xFCF, 0xFDA, 0xFDF, 0xFEF,
  0xFFF, 0x10BF, 0x10C5, 0x10C6, 0x10C7, 0x10CC, 0x10CD, 0x10CF, 0x10FF, 0x11FF, 0x123F, 0x1248,
  0x1249, 0x124D, 0x124F, 0x1256, 0x1257, 0x1258, 0x1259, 0x125D, 0x125F, 0x127F, 0x1288, 0x1289,
  0x128D, 0x128F, 0x12AF, 0x12B0, 0x12B1, 0x12B5, 0x12B6, 0x12B7, 0x12BE, 0x12BF, 0x12C0, 0x12C1,
  0x12C5, 0x12C6, 0x12C7, 0x12CF, 0x12D6, 0x12D7, 0x12DF, 0x12FF, 0x130F, 0x1310, 0x1311, 0x1315,
  0x1316, 0x1317, 0x131F, 0x134F, 0x135A, 0x135B, 0x135C, 0x135F, 0x136F, 0x137C, 0x137F, 0x138F,
  0x1399, 0x139F, 0x13EF, 0x13F5, 0x13F7, 0x13FD, 0x13FF, 0x15FF, 0x168F, 0x169C, 0x169F, 0x16EF,
  0x16F8, 0x16FF, 0x170C, 0x170D, 0x170F, 0x1714, 0x171F, 0x172F, 0x1736, 0x173F, 0x174F, 0x1753,
  0x175F, 0x176C, 0x176D, 0x176F, 0x1770, 0x1771, 0x1773],
  Spec.UnicodeData.V11.assigned4)

/-- Cuts for `Spec.UnicodeData.V11.assigned5`. -/
def assigned5 : Part := (0x1FFE, [
  0x177F, 0x17CF, 0x17DD, 0x17DF, 0x17E9, 0x17EF, 0x17F9, 0x17FF, 0x180E, 0x180F, 0x1819, 0x181F,
  0x186F, 0x1878, 0x187F, 0x189F, 0x18AA, 0x18AF, 0x18EF, 0x18F5, 0x18FF, 0x190F, 0x191E, 0x191F,
  0x192B, 0x192F, 0x193B, 0x193F, 0x1940, 0x1943, 0x194F, 0x195F, 0x196D, 0x196F, 0x1974, 0x197F,
  0x199F, 0x19AB, 0x19AF, 0x19BF, 0x19C9, 0x19CF, 0x19DA, 0x19DD, 0x19DF, 0x19FF, 0x1A0F, 0x1A1B,
  0x1A1C, 0x1A1D, 0x1A1F, 0x1A4F, 0x1A5E, 0x1A5F, 0x1A6F, 0x1A7C, 0x1A7D, 0x1A7E, 0x1A7F, 0x1A89,
  0x1A8F, 0x1A99, 0x1A9F, 0x1AAD, 0x1AAF, 0x1ABE, 0x1ABF, 0x1ACF, 0x1ADF, 0x1AEF, 0x1AFF, 0x1B3F,
  0x1B4B, 0x1B4F, 0x1B6F, 0x1B7C, 0x1B7F, 0x1BEF, 0x1BF3, 0x1BFB, 0x1BFF, 0x1C2F, 0x1C37, 0x1C3A,
  0x1C3F, 0x1C49, 0x1C4C, 0x1C4F, 0x1C7F, 0x1C88, 0x1C8F, 0x1CAF, 0x1CBA, 0x1CBB, 0x1CBC, 0x1CBF,
  0x1CC7, 0x1CCF, 0x1CEF, 0x1CF9, 0x1CFF, 0x1DF9, 0x1DFA, 0x1DFF, 0x1EFF, 0x1F0F, 0x1F15, 0x1F16,
  0x1F17, 0x1F1D, 0x1F1E, 0x1F1F, 0x1F3F, 0x1F45, 0x1F46, 0x1F47, 0x1F4D, 0x1F4E, 0x1F4F, 0x1F57,
  0x1F58, 0x1F59, 0x1F5A, 0x1F5B, 0x1F5C, 0x1F5D, 0x1F5E, 0x1F5F, 0x1F6F, 0x1F7D, 0x1F7F, 0x1FAF,
  0x1FB4, 0x1FB5, 0x1FBF, 0x1FC4, 0x1FC5, 0x1FCF, 0x1FD3, 0x1FD4, 0x1FD5, 0x1FDB, 0x1FDC, 0x1FDF,
  0x1FEF, 0x1FF1, 0x1FF4, 0x1FF5, 0x1FFE],
  Spec.UnicodeData.V11.assigned5)

/-- Cuts for `Spec.UnicodeData.V11.assigned6`. -/
def assigned6 : Part := (0xA6F7, [
  0x1FFF, 0x205F, 0x2064, 0x2065, 0x206F, 0x2071, 0x2072, 0x2073, 0x207F, 0x208E, 0x208F, 0x209C,
  0x209F, 0x20BF, 0x20CF, 0x20EF, 0x20F0, 0x20FF, 0x217F, 0x218B, 0x218F, 0x21FF, 0x23FF, 0x241F,
  0x2426, 0x242F, 0x243F, 0x244A, 0x244F, 0x245F, 0x24FF, 0x2AFF, 0x2B6F, 0x2B73, 0x2B74, 0x2B75,
  0x2B7F, 0x2B8F, 0x2B95, 0x2B96, 0x2B97, 0x2B9F, 0x2BBF, 0x2BC8, 0x2BC9, 0x2BCF, 0x2BEF, 0x2BFE,
  0x2BFF, 0x2C1F, 0x2C2E, 0x2C2F, 0x2C4F, 0x2C5E, 0x2C5F, 0x2CEF, 0x2CF3, 0x2CF8, 0x2CFF, 0x2D1F,
  0x2D20, 0x2D21, 0x2D22, 0x2D23, 0x2D24, 0x2D25, 0x2D26, 0x2D27, 0x2D2C, 0x2D2D, 0x2D2F, 0x2D5F,
  0x2D67, 0x2D6E, 0x2D6F, 0x2D70, 0x2D7E, 0x2D7F, 0x2D8F, 0x2D96, 0x2D9F, 0x2DA6, 0x2DA7, 0x2DAE,
  0x2DAF, 0x2DB6, 0x2DB7, 0x2DBE, 0x2DBF, 0x2DC6, 0x2DC7, 0x2DCE, 0x2DCF, 0x2DD6, 0x2DD7, 0x2DDE,
  0x2DDF, 0x2DFF, 0x2E3F, 0x2E4E, 0x2E4F, 0x2E5F, 0x2E6F, 0x2E7F, 0x2E8F, 0x2E99, 0x2E9A, 0x2E9F,
  0x2EEF, 0x2EF3, 0x2EFF, 0x2FCF, 0x2FD5, 0x2FDF, 0x2FEF, 0x2FFB, 0x2FFF, 0x303F, 0x3040, 0x304F,
  0x308F, 0x3096, 0x3097, 0x3098, 0x309F, 0x30FF, 0x3104, 0x310F, 0x312F, 0x3130, 0x313F, 0x317F,
  0x318E, 0x318F, 0x31AF, 0x31BA, 0x31BF, 0x31DF, 0x31E3, 0x31EF, 0x31FF, 0x320F, 0x321E, 0x321F,
  0x32EF, 0x32FE, 0x32FF, 0x3FFF, 0x4CFF, 0x4DAF, 0x4DB5, 0x4DBF, 0x4DFF, 0x4FFF, 0x8FFF, 0x9EFF,
  0x9FEF, 0x9FFF, 0xA3FF, 0xA47F, 0xA48C, 0xA48F, 0xA4BF, 0xA4C6, 0xA4CF, 0xA4FF, 0xA5FF, 0xA61F,
  0xA62B, 0xA62F, 0xA63F, 0xA6EF, 0xA6F7],
  Spec.UnicodeData.V11.assigned6)

/-- Cuts for `Spec.UnicodeData.V11.assigned7`. -/
def assigned7 : Part := (0xFFC7, [
  0xA6FF, 0xA7AF, 0xA7B9, 0xA7BF, 0xA7CF, 0xA7DF, 0xA7EF, 0xA7F6, 0xA7FF, 0xA81F, 0xA82B, 0xA82F,
  0xA839, 0xA83F, 0xA86F, 0xA877, 0xA87F, 0xA8BF, 0xA8C5, 0xA8CD, 0xA8CF, 0xA8D9, 0xA8DF, 0xA8FF,
  0xA94F, 0xA953, 0xA95E, 0xA95F, 0xA96F, 0xA97C, 0xA97F, 0xA9BF, 0xA9CD, 0xA9CE, 0xA9CF, 0xA9D9,
  0xA9DD, 0xA9DF, 0xA9EF, 0xA9FE, 0xA9FF, 0xAA2F, 0xAA36, 0xAA3F, 0xAA4D, 0xAA4F, 0xAA59, 0xAA5A,
  0xAA5B, 0xAA5F, 0xAABF, 0xAAC2, 0xAACF, 0xAADA, 0xAADF, 0xAAEF, 0xAAF6, 0xAAFF, 0xAB00, 0xAB06,
  0xAB07, 0xAB08, 0xAB0E, 0xAB0F, 0xAB10, 0xAB16, 0xAB1F, 0xAB26, 0xAB27, 0xAB2E, 0xAB2F, 0xAB5F,
  0xAB65, 0xAB6F, 0xABDF, 0xABED, 0xABEF, 0xABF9, 0xABFF, 0xAFFF, 0xCFFF, 0xD6FF, 0xD79F, 0xD7A3,
  0xD7AF, 0xD7BF, 0xD7C6, 0xD7CA, 0xD7CF, 0xD7EF, 0xD7FB, 0xD7FF, 0xDFFF, 0xEFFF, 0xF0FF, 0xF1FF,
  0xF2FF, 0xF3FF, 0xF4FF, 0xF5FF, 0xF6FF, 0xF7FF, 0xF8FF, 0xF9FF, 0xFA5F, 0xFA6D, 0xFA6F, 0xFACF,
  0xFAD9, 0xFADF, 0xFAEF, 0xFAFF, 0xFB06, 0xFB0F, 0xFB12, 0xFB17, 0xFB1C, 0xFB1F, 0xFB2F, 0xFB36,
  0xFB37, 0xFB3C, 0xFB3D, 0xFB3E, 0xFB3F, 0xFB41, 0xFB42, 0xFB44, 0xFB45, 0xFB4F, 0xFBBF, 0xFBC1,
  0xFBCF, 0xFBD2, 0xFBDF, 0xFBFF, 0xFCFF, 0xFD3F, 0xFD4F, 0xFD8F, 0xFD91, 0xFD9F, 0xFDBF, 0xFDC7,
  0xFDCF, 0xFDDF, 0xFDEF, 0xFDFD, 0xFDFF, 0xFE0F, 0xFE19, 0xFE1F, 0xFE4F, 0xFE52, 0xFE53, 0xFE5F,
  0xFE66, 0xFE67, 0xFE6B, 0xFE6F, 0xFE74, 0xFE75, 0xFE7F, 0xFEEF, 0xFEFC, 0xFEFD, 0xFEFE, 0xFEFF,
  0xFF00, 0xFF0F, 0xFFAF, 0xFFBE, 0xFFBF, 0xFFC0, 0xFFC1, 0xFFC7],
  Spec.UnicodeData.V11.assigned7)

/-- Cuts for `Spec.UnicodeData.V11.assigned8`. -/
def assigned8 : Part := (0x10939, [
  0xFFC8, 0xFFC9, 0xFFCF, 0xFFD1, 0xFFD7, 0xFFD8, 0xFFD9, 0xFFDC, 0xFFDF, 0xFFE6, 0xFFE7, 0xFFEE,
  0xFFEF, 0xFFF8, 0xFFFD, 0xFFFF, 0x1000B, 0x1000C, 0x1000F, 0x1001F, 0x10026, 0x10027, 0x1002F,
  0x1003A, 0x1003B, 0x1003D, 0x1003E, 0x1003F, 0x1004D, 0x1004F, 0x1005D, 0x1005F, 0x1006F,
  0x1007F, 0x100EF, 0x100FA, 0x100FF, 0x10102, 0x10106, 0x1010F, 0x1012F, 0x10133, 0x10136,
  0x1013F, 0x1017F, 0x1018E, 0x1018F, 0x1019B, 0x1019F, 0x101A0, 0x101AF, 0x101BF, 0x101CF,
  0x101EF, 0x101FD, 0x101FF, 0x1027F, 0x1028F, 0x1029C, 0x1029F, 0x102AF, 0x102BF, 0x102CF,
  0x102D0, 0x102DF, 0x102EF, 0x102FB, 0x102FF, 0x1031F, 0x10323, 0x1032C, 0x1032F, 0x1033F,
  0x1034A, 0x1034F, 0x1036F, 0x1037A, 0x1037F, 0x1038F, 0x1039D, 0x1039E, 0x1039F, 0x103BF,
  0x103C3, 0x103C7, 0x103CF, 0x103D5, 0x103DF, 0x103EF, 0x103FF, 0x1048F, 0x1049D, 0x1049F,
  0x104A9, 0x104AF, 0x104CF, 0x104D3, 0x104D7, 0x104DF, 0x104EF, 0x104FB, 0x104FF, 0x1051F,
  0x10527, 0x1052F, 0x1055F, 0x10563, 0x1056E, 0x1056F, 0x105FF, 0x106FF, 0x1070F, 0x1071F,
  0x1072F, 0x10736, 0x1073F, 0x1074F, 0x10755, 0x1075F, 0x10767, 0x1076F, 0x107FF, 0x10805,
  0x10806, 0x10807, 0x10808, 0x10809, 0x1080F, 0x1082F, 0x10835, 0x10836, 0x10838, 0x1083B,
  0x1083C, 0x1083E, 0x1083F, 0x1084F, 0x10855, 0x10856, 0x1085F, 0x1088F, 0x1089E, 0x1089F,
  0x108A6, 0x108AF, 0x108BF, 0x108CF, 0x108DF, 0x108EF, 0x108F2, 0x108F3, 0x108F5, 0x108FA,
  0x108FF, 0x1090F, 0x1091B, 0x1091E, 0x1091F, 0x1092F, 0x10939],
  Spec.UnicodeData.V11.assigned8)

/-- Cuts for `Spec.UnicodeData.V11.assigned9`. -/
def assigned9 : Part := (0x11303, [
  0x1093E, 0x1093F, 0x1094F, 0x1095F, 0x1096F, 0x1097F, 0x109AF, 0x109B7, 0x109BB, 0x109BF,
  0x109CF, 0x109D1, 0x109DF, 0x109FF, 0x10A03, 0x10A04, 0x10A06, 0x10A0B, 0x10A0F, 0x10A13,
  0x10A14, 0x10A17, 0x10A18, 0x10A1F, 0x10A2F, 0x10A35, 0x10A36, 0x10A37, 0x10A3A, 0x10A3E,
  0x10A3F, 0x10A48, 0x10A4F, 0x10A58, 0x10A5F, 0x10A9F, 0x10AAF, 0x10ABF, 0x10ADF, 0x10AE6,
  0x10AEA, 0x10AEF, 0x10AF6, 0x10AFF, 0x10B2F, 0x10B35, 0x10B38, 0x10B3F, 0x10B4F, 0x10B55,
  0x10B56, 0x10B57, 0x10B5F, 0x10B6F, 0x10B72, 0x10B77, 0x10B7F, 0x10B8F, 0x10B91, 0x10B98,
  0x10B9C, 0x10B9F, 0x10BA8, 0x10BAF, 0x10BBF, 0x10BCF, 0x10BDF, 0x10BEF, 0x10BFF, 0x10C3F,
  0x10C48, 0x10C4F, 0x10C5F, 0x10C6F, 0x10C7F, 0x10CAF, 0x10CB2, 0x10CBF, 0x10CEF, 0x10CF2,
  0x10CF9, 0x10CFF, 0x10D0F, 0x10D1F, 0x10D27, 0x10D2F, 0x10D39, 0x10D3F, 0x10DFF, 0x10E5F,
  0x10E7E, 0x10EFF, 0x10F0F, 0x10F1F, 0x10F27, 0x10F2F, 0x10F3F, 0x10F4F, 0x10F59, 0x10F5F,
  0x10FFF, 0x1103F, 0x1104D, 0x1104F, 0x11051, 0x1105F, 0x1106F, 0x1107E, 0x1107F, 0x110BF,
  0x110C1, 0x110CC, 0x110CD, 0x110CF, 0x110DF, 0x110E8, 0x110EF, 0x110F9, 0x110FF, 0x1112F,
  0x11134, 0x11135, 0x1113F, 0x11146, 0x1114F, 0x1116F, 0x11176, 0x1117F, 0x111BF, 0x111CD,
  0x111CF, 0x111DF, 0x111E0, 0x111EF, 0x111F4, 0x111FF, 0x1120F, 0x11211, 0x11212, 0x1121F,
  0x1122F, 0x1123E, 0x1123F, 0x1124F, 0x1125F, 0x1126F, 0x1127F, 0x11286, 0x11287, 0x11288,
  0x11289, 0x1128D, 0x1128E, 0x1128F, 0x1129D, 0x1129E, 0x1129F, 0x112A9, 0x112AF, 0x112DF,
  0x112EA, 0x112EF, 0x112F9, 0x112FF, 0x11303],
  Spec.UnicodeData.V11.assigned9)

/-- Cuts for `Spec.UnicodeData.V11.assigned10`. -/
def assigned10 : Part := (0x11D59, [
  0x11304, 0x1130C, 0x1130D, 0x1130E, 0x1130F, 0x11310, 0x11311, 0x11312, 0x1131F, 0x11328,
  0x11329, 0x1132F, 0x11330, 0x11331, 0x11333, 0x11334, 0x11339, 0x1133A, 0x1133F, 0x11344,
  0x11345, 0x11346, 0x11348, 0x11349, 0x1134A, 0x1134D, 0x1134E, 0x1134F, 0x11350, 0x11356,
  0x11357, 0x1135C, 0x1135F, 0x11363, 0x11364, 0x11365, 0x1136C, 0x1136F, 0x11374, 0x1137F,
  0x113FF, 0x1144F, 0x11459, 0x1145A, 0x1145B, 0x1145C, 0x1145E, 0x1145F, 0x1146F, 0x1147F,
  0x114BF, 0x114C7, 0x114CF, 0x114D9, 0x114DF, 0x114EF, 0x114FF, 0x1157F, 0x1158F, 0x1159F,
  0x115AF, 0x115B5, 0x115B6, 0x115B7, 0x115BF, 0x115CF, 0x115DD, 0x115DF, 0x115FF, 0x1163F,
  0x11644, 0x1164F, 0x11659, 0x1165F, 0x1166C, 0x1166F, 0x1167F, 0x116AF, 0x116B7, 0x116BF,
  0x116C9, 0x116CF, 0x116DF, 0x116EF, 0x116FF, 0x1170F, 0x1171A, 0x1171B, 0x1171C, 0x1171F,
  0x1172B, 0x1172F, 0x1173F, 0x117FF, 0x1182F, 0x1183B, 0x1183F, 0x1184F, 0x1185F, 0x1186F,
  0x1187F, 0x1188F, 0x1189F, 0x118EF, 0x118F2, 0x118FE, 0x118FF, 0x119FF, 0x11A3F, 0x11A47,
  0x11A4F, 0x11A7F, 0x11A83, 0x11A84, 0x11A85, 0x11A8F, 0x11A9F, 0x11AA2, 0x11AAF, 0x11ABF,
  0x11AEF, 0x11AF8, 0x11AFF, 0x11BFF, 0x11C08, 0x11C09, 0x11C0F, 0x11C2F, 0x11C36, 0x11C37,
  0x11C3F, 0x11C45, 0x11C4F, 0x11C5F, 0x11C6C, 0x11C6F, 0x11C8F, 0x11C91, 0x11C9F, 0x11CA7,
  0x11CA8, 0x11CAF, 0x11CB6, 0x11CBF, 0x11CCF, 0x11CDF, 0x11CEF, 0x11CFF, 0x11D06, 0x11D07,
  0x11D09, 0x11D0A, 0x11D0F, 0x11D1F, 0x11D2F, 0x11D36, 0x11D39, 0x11D3A, 0x11D3B, 0x11D3D,
  0x11D3E, 0x11D3F, 0x11D47, 0x11D4F, 0x11D59],
  Spec.UnicodeData.V11.assigned10)

/-- Cuts for `Spec.UnicodeData.V11.assigned11`. -/
def assigned11 : Part := (0x1D4A6, [
  0x11D5F, 0x11D65, 0x11D66, 0x11D68, 0x11D69, 0x11D6F, 0x11D7F, 0x11D8E, 0x11D8F, 0x11D91,
  0x11D92, 0x11D98, 0x11D9F, 0x11DA9, 0x11DAF, 0x11DFF, 0x11EDF, 0x11EEF, 0x11EF8, 0x11EFF,
  0x11FFF, 0x120FF, 0x121FF, 0x122FF, 0x1238F, 0x12399, 0x1239F, 0x123FF, 0x1245F, 0x1246E,
  0x1246F, 0x12474, 0x1247F, 0x124FF, 0x1253F, 0x12543, 0x1254F, 0x125FF, 0x12FFF, 0x130FF,
  0x131FF, 0x132FF, 0x133FF, 0x1341F, 0x1342E, 0x1342F, 0x134FF, 0x13FFF, 0x143FF, 0x144FF,
  0x145FF, 0x1463F, 0x14646, 0x1464F, 0x146FF, 0x14FFF, 0x15FFF, 0x167FF, 0x168FF, 0x169FF,
  0x16A2F, 0x16A38, 0x16A3F, 0x16A4F, 0x16A5E, 0x16A5F, 0x16A69, 0x16A6D, 0x16A6F, 0x16ACF,
  0x16ADF, 0x16AED, 0x16AEF, 0x16AF5, 0x16AFF, 0x16B3F, 0x16B45, 0x16B4F, 0x16B59, 0x16B5A,
  0x16B5F, 0x16B61, 0x16B62, 0x16B6F, 0x16B77, 0x16B7C, 0x16B7F, 0x16B8F, 0x16BFF, 0x16DFF,
  0x16E3F, 0x16E8F, 0x16E9A, 0x16E9F, 0x16EFF, 0x16F3F, 0x16F44, 0x16F4F, 0x16F6F, 0x16F7E,
  0x16F7F, 0x16F8E, 0x16F8F, 0x16F9F, 0x16FDF, 0x16FE0, 0x16FE1, 0x16FFF, 0x17FFF, 0x186FF,
  0x187EF, 0x187F1, 0x187FF, 0x189FF, 0x18AEF, 0x18AF2, 0x18AFF, 0x18BFF, 0x18CFF, 0x18DFF,
  0x18EFF, 0x18FFF, 0x1AFFF, 0x1B0FF, 0x1B11E, 0x1B16F, 0x1B1FF, 0x1B2FB, 0x1B2FF, 0x1BBFF,
  0x1BC5F, 0x1BC6A, 0x1BC6F, 0x1BC7C, 0x1BC7F, 0x1BC88, 0x1BC8F, 0x1BC99, 0x1BC9A, 0x1BC9B,
  0x1BC9F, 0x1BCA3, 0x1BCAF, 0x1BCFF, 0x1BFFF, 0x1CFFF, 0x1D0F5, 0x1D0FF, 0x1D11F, 0x1D126,
  0x1D127, 0x1D128, 0x1D12F, 0x1D1DF, 0x1D1E8, 0x1D1EF, 0x1D1FF, 0x1D20F, 0x1D21F, 0x1D22F,
  0x1D23F, 0x1D245, 0x1D24F, 0x1D2DF, 0x1D2EF, 0x1D2F3, 0x1D2FF, 0x1D30F, 0x1D31F, 0x1D32F,
  0x1D33F, 0x1D34F, 0x1D356, 0x1D35F, 0x1D36F, 0x1D378, 0x1D37F, 0x1D3FF, 0x1D44F, 0x1D454,
  0x1D455, 0x1D45F, 0x1D48F, 0x1D49C, 0x1D49D, 0x1D49F, 0x1D4A0, 0x1D4A1, 0x1D4A2, 0x1D4A3,
  0x1D4A4, 0x1D4A6],
  Spec.UnicodeData.V11.assigned11)

/-- Cuts for `Spec.UnicodeData.V11.assigned12`. -/
def assigned12 : Part := (0x1EE5F, [
  0x1D4A7, 0x1D4A8, 0x1D4AC, 0x1D4AD, 0x1D4AF, 0x1D4B9, 0x1D4BA, 0x1D4BB, 0x1D4BC, 0x1D4BF,
  0x1D4C3, 0x1D4C4, 0x1D4CF, 0x1D4FF, 0x1D505, 0x1D506, 0x1D50A, 0x1D50B, 0x1D50C, 0x1D50F,
  0x1D514, 0x1D515, 0x1D51C, 0x1D51D, 0x1D51F, 0x1D52F, 0x1D539, 0x1D53A, 0x1D53E, 0x1D53F,
  0x1D544, 0x1D545, 0x1D546, 0x1D549, 0x1D54F, 0x1D550, 0x1D551, 0x1D55F, 0x1D5FF, 0x1D6A5,
  0x1D6A6, 0x1D6A7, 0x1D6FF, 0x1D7CB, 0x1D7CC, 0x1D7CD, 0x1D7FF, 0x1D8FF, 0x1D9FF, 0x1DA7F,
  0x1DA8B, 0x1DA8F, 0x1DA9A, 0x1DA9F, 0x1DAA0, 0x1DAAF, 0x1DAFF, 0x1DFFF, 0x1E006, 0x1E007,
  0x1E00F, 0x1E018, 0x1E019, 0x1E01A, 0x1E01F, 0x1E021, 0x1E022, 0x1E024, 0x1E025, 0x1E02A,
  0x1E02F, 0x1E0FF, 0x1E7FF, 0x1E8BF, 0x1E8C4, 0x1E8C5, 0x1E8C6, 0x1E8CF, 0x1E8D6, 0x1E8DF,
  0x1E8FF, 0x1E93F, 0x1E94A, 0x1E94F, 0x1E959, 0x1E95D, 0x1E95F, 0x1E9FF, 0x1EBFF, 0x1EC6F,
  0x1EC70, 0x1EC7F, 0x1EC8F, 0x1EC9F, 0x1ECAF, 0x1ECB4, 0x1ECBF, 0x1ECFF, 0x1EDFF, 0x1EE03,
  0x1EE04, 0x1EE0F, 0x1EE1F, 0x1EE20, 0x1EE22, 0x1EE23, 0x1EE24, 0x1EE25, 0x1EE26, 0x1EE27,
  0x1EE28, 0x1EE2F, 0x1EE32, 0x1EE33, 0x1EE37, 0x1EE38, 0x1EE39, 0x1EE3A, 0x1EE3B, 0x1EE3C,
  0x1EE3D, 0x1EE3E, 0x1EE3F, 0x1EE40, 0x1EE41, 0x1EE42, 0x1EE43, 0x1EE44, 0x1EE45, 0x1EE46,
  0x1EE47, 0x1EE48, 0x1EE49, 0x1EE4A, 0x1EE4B, 0x1EE4C, 0x1EE4F, 0x1EE50, 0x1EE52, 0x1EE53,
  0x1EE54, 0x1EE55, 0x1EE56, 0x1EE57, 0x1EE58, 0x1EE59, 0x1EE5A, 0x1EE5B, 0x1EE5C, 0x1EE5D,
  0x1EE5E, 0x1EE5F],
  Spec.UnicodeData.V11.assigned12)

/-- Cuts for `Spec.UnicodeData.V11.assigned13`. -/
def assigned13 : Part := (0x2B81D, [
  0x1EE60, 0x1EE62, 0x1EE63, 0x1EE64, 0x1EE65, 0x1EE66, 0x1EE6A, 0x1EE6B, 0x1EE6F, 0x1EE72,
  0x1EE73, 0x1EE77, 0x1EE78, 0x1EE7C, 0x1EE7D, 0x1EE7E, 0x1EE7F, 0x1EE89, 0x1EE8A, 0x1EE8F,
  0x1EE9B, 0x1EE9F, 0x1EEA0, 0x1EEA3, 0x1EEA4, 0x1EEA9, 0x1EEAA, 0x1EEAF, 0x1EEBB, 0x1EEBF,
  0x1EECF, 0x1EEDF, 0x1EEEF, 0x1EEF1, 0x1EEFF, 0x1EFFF, 0x1F01F, 0x1F02B, 0x1F02F, 0x1F08F,
  0x1F093, 0x1F09F, 0x1F0AE, 0x1F0AF, 0x1F0B0, 0x1F0BF, 0x1F0C0, 0x1F0CF, 0x1F0D0, 0x1F0DF,
  0x1F0EF, 0x1F0F5, 0x1F0FF, 0x1F10C, 0x1F10F, 0x1F15F, 0x1F16B, 0x1F16F, 0x1F19F, 0x1F1AC,
  0x1F1AF, 0x1F1BF, 0x1F1CF, 0x1F1DF, 0x1F1E5, 0x1F1EF, 0x1F1FF, 0x1F202, 0x1F20F, 0x1F22F,
  0x1F23B, 0x1F23F, 0x1F248, 0x1F24F, 0x1F251, 0x1F25F, 0x1F265, 0x1F26F, 0x1F2FF, 0x1F3FF,
  0x1F4FF, 0x1F5FF, 0x1F6CF, 0x1F6D4, 0x1F6DF, 0x1F6EC, 0x1F6EF, 0x1F6F9, 0x1F6FF, 0x1F76F,
  0x1F773, 0x1F77F, 0x1F7CF, 0x1F7D8, 0x1F7DF, 0x1F7EF, 0x1F7FF, 0x1F80B, 0x1F80F, 0x1F83F,
  0x1F847, 0x1F84F, 0x1F859, 0x1F85F, 0x1F87F, 0x1F887, 0x1F88F, 0x1F89F, 0x1F8AD, 0x1F8AF,
  0x1F8FF, 0x1F90B, 0x1F90F, 0x1F92F, 0x1F93E, 0x1F93F, 0x1F96F, 0x1F970, 0x1F971, 0x1F972,
  0x1F976, 0x1F979, 0x1F97A, 0x1F97B, 0x1F97F, 0x1F99F, 0x1F9A2, 0x1F9AF, 0x1F9B9, 0x1F9BF,
  0x1F9C2, 0x1F9CF, 0x1F9FF, 0x1FA5F, 0x1FA6D, 0x1FA6E, 0x1FA6F, 0x1FAFF, 0x1FFFF, 0x29FFF,
  0x2A5FF, 0x2A6CF, 0x2A6D6, 0x2A6DF, 0x2A6FF, 0x2AFFF, 0x2B6FF, 0x2B72F, 0x2B734, 0x2B73F,
  0x2B7FF, 0x2B80F, 0x2B81D],
  Spec.UnicodeData.V11.assigned13)

/-- Cuts for `Spec.UnicodeData.V11.assigned14`. -/
def assigned14 : Part := (0xFFFFFFFF, [
  0x2B81F, 0x2B8FF, 0x2BFFF, 0x2CDFF, 0x2CE9F, 0x2CEA1, 0x2CEAF, 0x2CEFF, 0x2CFFF, 0x2DFFF,
  0x2EAFF, 0x2EBDF, 0x2EBE0, 0x2EBEF, 0x2EBFF, 0x2ECFF, 0x2EDFF, 0x2EEFF, 0x2EFFF, 0x2F7FF,
  0x2F9FF, 0x2FA0F, 0x2FA1D, 0x2FA1F, 0x2FAFF, 0x2FFFF, 0xDFFFF, 0xE0000, 0xE0001, 0xE000F,
  0xE001F, 0xE007F, 0xE00FF, 0xE01EF, 0xE01FF, 0xE0FFF, 0xEFFFF, 0xFFFFFFFF],
  Spec.UnicodeData.V11.assigned14)

/-- Cuts for `Spec.UnicodeData.V11.assigned`. -/
def assignedParts : List Part := [
  assigned1, assigned2, assigned3, assigned4, assigned5, assigned6, assigned7, assigned8,
  assigned9, assigned10, assigned11, assigned12, assigned13, assigned14]

/-- Cuts for `isUnicodePrivate16`. -/
def private16Parts : List Part := [
  (0xFFFF, [
    0xDFFF, 0xEFFF, 0xF8FF, 0xFFFF],
    [(0xE000, 0xF8FF)])]

/-- Cuts for `isUnicodePrivate32`. -/
def private32Parts : List Part := [
  (0xFFFFFFFF, [
    0xDFFF, 0xEFFF, 0xF8FF, 0xFFFF, 0xEFFFF, 0xFFFFD, 0xFFFFF, 0x10FFFD, 0x10FFFF, 0xFFFFFFFF],
    [(0xE000, 0xF8FF), (0xF0000, 0xFFFFD), (0x100000, 0x10FFFD)])]

/-- Cuts for `isControlChar8`. -/
def control8Parts : List Part := [
  (0xFF, [
    0x1F, 0x7E, 0x9F, 0xFF],
    [(0x0, 0x1F), (0x7F, 0x9F)])]

/-- Cuts for `isControlChar16`. -/
def control16Parts : List Part := [
  (0xFFFF, [
    0x1F, 0x7E, 0x9F, 0xFF, 0xFFFF],
    [(0x0, 0x1F), (0x7F, 0x9F)])]

/-- Cuts for `isControlChar32`. -/
def control32Parts : List Part := [
  (0xFFFFFFFF, [
    0x1F, 0x7E, 0x9F, 0xFF, 0xFFFFFFFF],
    [(0x0, 0x1F), (0x7F, 0x9F)])]

/-- Cuts for `isWhitespaceChar8`. -/
def white8Parts : List Part := [
  (0xFF, [
    0x8, 0x9, 0xA, 0xB, 0xC, 0xD, 0x1F, 0x20, 0x84, 0x85, 0x9F, 0xA0, 0xFF],
    [(0x9, 0xD), (0x20, 0x20), (0x85, 0x85), (0xA0, 0xA0)])]

/-- Cuts for `isWhitespaceChar16`. -/
def white16Parts : List Part := [
  (0x63, [
    0x0, 0x1, 0x2, 0x3, 0x4, 0x5, 0x6, 0x7, 0x8, 0x9, 0xA, 0xB, 0xC, 0xD, 0xE, 0xF, 0x10, 0x11,
    0x12, 0x13, 0x14, 0x15, 0x16, 0x17, 0x18, 0x19, 0x1A, 0x1B, 0x1C, 0x1D, 0x1E, 0x1F, 0x20,
    0x21, 0x22, 0x23, 0x24, 0x25, 0x26, 0x27, 0x28, 0x29, 0x2A, 0x2B, 0x2C, 0x2D, 0x2E, 0x2F,
    0x30, 0x31, 0x32, 0x33, 0x34, 0x35, 0x36, 0x37, 0x38, 0x39, 0x3A, 0x3B, 0x3C, 0x3D, 0x3E,
    0x3F, 0x40, 0x41, 0x42, 0x43, 0x44, 0x45, 0x46, 0x47, 0x48, 0x49, 0x4A, 0x4B, 0x4C, 0x4D,
    0x4E, 0x4F, 0x50, 0x51, 0x52, 0x53, 0x54, 0x55, 0x56, 0x57, 0x58, 0x59, 0x5A, 0x5B, 0x5C,
    0x5D, 0x5E, 0x5F, 0x60, 0x61, 0x62, 0x63],
    [(0x9, 0xD), (0x20, 0x20)]),
  (0xC7, [
    0x64, 0x65, 0x66, 0x67, 0x68, 0x69, 0x6A, 0x6B, 0x6C, 0x6D, 0x6E, 0x6F, 0x70, 0x71, 0x72,
    0x73, 0x74, 0x75, 0x76, 0x77, 0x78, 0x79, 0x7A, 0x7B, 0x7C, 0x7D, 0x7E, 0x7F, 0x80, 0x81,
    0x82, 0x83, 0x84, 0x85, 0x86, 0x87, 0x88, 0x89, 0x8A, 0x8B, 0x8C, 0x8D, 0x8E, 0x8F, 0x90,
    0x91, 0x92, 0x93, 0x94, 0x95, 0x96, 0x97, 0x98, 0x99, 0x9A, 0x9B, 0x9C, 0x9D, 0x9E, 0x9F,
    0xA0, 0xA1, 0xA2, 0xA3, 0xA4, 0xA5, 0xA6, 0xA7, 0xA8, 0xA9, 0xAA, 0xAB, 0xAC, 0xAD, 0xAE,
    0xAF, 0xB0, 0xB1, 0xB2, 0xB3, 0xB4, 0xB5, 0xB6, 0xB7, 0xB8, 0xB9, 0xBA, 0xBB, 0xBC, 0xBD,
    0xBE, 0xBF, 0xC0, 0xC1, 0xC2, 0xC3, 0xC4, 0xC5, 0xC6, 0xC7],
    [(0x85, 0x85), (0xA0, 0xA0)]),
  (0x22FF, [
    0xC8, 0xC9, 0xCA, 0xCB, 0xCC, 0xCD, 0xCE, 0xCF, 0xD0, 0xD1, 0xD2, 0xD3, 0xD4, 0xD5, 0xD6,
    0xD7, 0xD8, 0xD9, 0xDA, 0xDB, 0xDC, 0xDD, 0xDE, 0xDF, 0xE0, 0xE1, 0xE2, 0xE3, 0xE4, 0xE5,
    0xE6, 0xE7, 0xE8, 0xE9, 0xEA, 0xEB, 0xEC, 0xED, 0xEE, 0xEF, 0xF0, 0xF1, 0xF2, 0xF3, 0xF4,
    0xF5, 0xF6, 0xF7, 0xF8, 0xF9, 0xFA, 0xFB, 0xFC, 0xFD, 0xFE, 0xFF, 0x1FF, 0x2FF, 0x3FF, 0x4FF,
    0x5FF, 0x6FF, 0x7FF, 0x8FF, 0x9FF, 0xAFF, 0xBFF, 0xCFF, 0xDFF, 0xEFF, 0xFFF, 0x10FF, 0x11FF,
    0x12FF, 0x13FF, 0x14FF, 0x15FF, 0x167F, 0x1680, 0x16FF, 0x17FF, 0x18FF, 0x19FF, 0x1AFF,
    0x1BFF, 0x1CFF, 0x1DFF, 0x1EFF, 0x1FFF, 0x200A, 0x2027, 0x2028, 0x2029, 0x202E, 0x202F,
    0x205E, 0x205F, 0x20FF, 0x21FF, 0x22FF],
    [(0x1680, 0x1680), (0x2000, 0x200A), (0x2028, 0x2029), (0x202F, 0x202F), (0x205F, 0x205F)]),
  (0x85FF, [
    0x23FF, 0x24FF, 0x25FF, 0x26FF, 0x27FF, 0x28FF, 0x29FF, 0x2AFF, 0x2BFF, 0x2CFF, 0x2DFF,
    0x2EFF, 0x2FFF, 0x3000, 0x30FF, 0x31FF, 0x32FF, 0x33FF, 0x34FF, 0x35FF, 0x36FF, 0x37FF,
    0x38FF, 0x39FF, 0x3AFF, 0x3BFF, 0x3CFF, 0x3DFF, 0x3EFF, 0x3FFF, 0x40FF, 0x41FF, 0x42FF,
    0x43FF, 0x44FF, 0x45FF, 0x46FF, 0x47FF, 0x48FF, 0x49FF, 0x4AFF, 0x4BFF, 0x4CFF, 0x4DFF,
    0x4EFF, 0x4FFF, 0x50FF, 0x51FF, 0x52FF, 0x53FF, 0x54FF, 0x55FF, 0x56FF, 0x57FF, 0x58FF,
    0x59FF, 0x5AFF, 0x5BFF, 0x5CFF, 0x5DFF, 0x5EFF, 0x5FFF, 0x60FF, 0x61FF, 0x62FF, 0x63FF,
    0x64FF, 0x65FF, 0x66FF, 0x67FF, 0x68FF, 0x69FF, 0x6AFF, 0x6BFF, 0x6CFF, 0x6DFF, 0x6EFF,
    0x6FFF, 0x70FF, 0x71FF, 0x72FF, 0x73FF, 0x74FF, 0x75FF, 0x76FF, 0x77FF, 0x78FF, 0x79FF,
    0x7AFF, 0x7BFF, 0x7CFF, 0x7DFF, 0x7EFF, 0x7FFF, 0x80FF, 0x81FF, 0x82FF, 0x83FF, 0x84FF,
    0x85FF],
    [(0x3000, 0x3000)]),
  (0xE9FF, [
    0x86FF, 0x87FF, 0x88FF, 0x89FF, 0x8AFF, 0x8BFF, 0x8CFF, 0x8DFF, 0x8EFF, 0x8FFF, 0x90FF,
    0x91FF, 0x92FF, 0x93FF, 0x94FF, 0x95FF, 0x96FF, 0x97FF, 0x98FF, 0x99FF, 0x9AFF, 0x9BFF,
    0x9CFF, 0x9DFF, 0x9EFF, 0x9FFF, 0xA0FF, 0xA1FF, 0xA2FF, 0xA3FF, 0xA4FF, 0xA5FF, 0xA6FF,
    0xA7FF, 0xA8FF, 0xA9FF, 0xAAFF, 0xABFF, 0xACFF, 0xADFF, 0xAEFF, 0xAFFF, 0xB0FF, 0xB1FF,
    0xB2FF, 0xB3FF, 0xB4FF, 0xB5FF, 0xB6FF, 0xB7FF, 0xB8FF, 0xB9FF, 0xBAFF, 0xBBFF, 0xBCFF,
    0xBDFF, 0xBEFF, 0xBFFF, 0xC0FF, 0xC1FF, 0xC2FF, 0xC3FF, 0xC4FF, 0xC5FF, 0xC6FF, 0xC7FF,
    0xC8FF, 0xC9FF, 0xCAFF, 0xCBFF, 0xCCFF, 0xCDFF, 0xCEFF, 0xCFFF, 0xD0FF, 0xD1FF, 0xD2FF,
    0xD3FF, 0xD4FF, 0xD5FF, 0xD6FF, 0xD7FF, 0xD8FF, 0xD9FF, 0xDAFF, 0xDBFF, 0xDCFF, 0xDDFF,
    0xDEFF, 0xDFFF, 0xE0FF, 0xE1FF, 0xE2FF, 0xE3FF, 0xE4FF, 0xE5FF, 0xE6FF, 0xE7FF, 0xE8FF,
    0xE9FF],
    []),
  (0xFFFF, [
    0xEAFF, 0xEBFF, 0xECFF, 0xEDFF, 0xEEFF, 0xEFFF, 0xF0FF, 0xF1FF, 0xF2FF, 0xF3FF, 0xF4FF,
    0xF5FF, 0xF6FF, 0xF7FF, 0xF8FF, 0xF9FF, 0xFAFF, 0xFBFF, 0xFCFF, 0xFDFF, 0xFEFF, 0xFFFF],
    [])]

/-- Cuts for `isWhitespaceChar32`. -/
def white32Parts : List Part := [
  (0x63, [
    0x0, 0x1, 0x2, 0x3, 0x4, 0x5, 0x6, 0x7, 0x8, 0x9, 0xA, 0xB, 0xC, 0xD, 0xE, 0xF, 0x10, 0x11,
    0x12, 0x13, 0x14, 0x15, 0x16, 0x17, 0x18, 0x19, 0x1A, 0x1B, 0x1C, 0x1D, 0x1E, 0x1F, 0x20,
    0x21, 0x22, 0x23, 0x24, 0x25, 0x26, 0x27, 0x28, 0x29, 0x2A, 0x2B, 0x2C, 0x2D, 0x2E, 0x2F,
    0x30, 0x31, 0x32, 0x33, 0x34, 0x35, 0x36, 0x37, 0x38, 0x39, 0x3A, 0x3B, 0x3C, 0x3D, 0x3E,
    0x3F, 0x40, 0x41, 0x42, 0x43, 0x44, 0x45, 0x46, 0x47, 0x48, 0x49, 0x4A, 0x4B, 0x4C, 0x4D,
    0x4E, 0x4F, 0x50, 0x51, 0x52, 0x53, 0x54, 0x55, 0x56, 0x57, 0x58, 0x59, 0x5A, 0x5B, 0x5C,
    0x5D, 0x5E, 0x5F, 0x60, 0x61, 0x62, 0x63],
    [(0x9, 0xD), (0x20, 0x20)]),
  (0xC7, [
    0x64, 0x65, 0x66, 0x67, 0x68, 0x69, 0x6A, 0x6B, 0x6C, 0x6D, 0x6E, 0x6F, 0x70, 0x71, 0x72,
    0x73, 0x74, 0x75, 0x76, 0x77, 0x78, 0x79, 0x7A, 0x7B, 0x7C, 0x7D, 0x7E, 0x7F, 0x80, 0x81,
    0x82, 0x83, 0x84, 0x85, 0x86, 0x87, 0x88, 0x89, 0x8A, 0x8B, 0x8C, 0x8D, 0x8E, 0x8F, 0x90,
    0x91, 0x92, 0x93, 0x94, 0x95, 0x96, 0x97, 0x98, 0x99, 0x9A, 0x9B, 0x9C, 0x9D, 0x9E, 0x9F,
    0xA0, 0xA1, 0xA2, 0xA3, 0xA4, 0xA5, 0xA6, 0xA7, 0xA8, 0xA9, 0xAA, 0xAB, 0xAC, 0xAD, 0xAE,
    0xAF, 0xB0, 0xB1, 0xB2, 0xB3, 0xB4, 0xB5, 0xB6, 0xB7, 0xB8, 0xB9, 0xBA, 0xBB, 0xBC, 0xBD,
    0xBE, 0xBF, 0xC0, 0xC1, 0xC2, 0xC3, 0xC4, 0xC5, 0xC6, 0xC7],
    [(0x85, 0x85), (0xA0, 0xA0)]),
  (0x22FF, [
    0xC8, 0xC9, 0xCA, 0xCB, 0xCC, 0xCD, 0xCE, 0xCF, 0xD0, 0xD1, 0xD2, 0xD3, 0xD4, 0xD5, 0xD6,
    0xD7, 0xD8, 0xD9, 0xDA, 0xDB, 0xDC, 0xDD, 0xDE, 0xDF, 0xE0, 0xE1, 0xE2, 0xE3, 0xE4, 0xE5,
    0xE6, 0xE7, 0xE8, 0xE9, 0xEA, 0xEB, 0xEC, 0xED, 0xEE, 0xEF, 0xF0, 0xF1, 0xF2, 0xF3, 0xF4,
    0xF5, 0xF6, 0xF7, 0xF8, 0xF9, 0xFA, 0xFB, 0xFC, 0xFD, 0xFE, 0xFF, 0x1FF, 0x2FF, 0x3FF, 0x4FF,
    0x5FF, 0x6FF, 0x7FF, 0x8FF, 0x9FF, 0xAFF, 0xBFF, 0xCFF, 0xDFF, 0xEFF, 0xFFF, 0x10FF, 0x11FF,
    0x12FF, 0x13FF, 0x14FF, 0x15FF, 0x167F, 0x1680, 0x16FF, 0x17FF, 0x18FF, 0x19FF, 0x1AFF,
    0x1BFF, 0x1CFF, 0x1DFF, 0x1EFF, 0x1FFF, 0x200A, 0x2027, 0x2028, 0x2029, 0x202E, 0x202F,
    0x205E, 0x205F, 0x20FF, 0x21FF, 0x22FF],
    [(0x1680, 0x1680), (0x2000, 0x200A), (0x2028, 0x2029), (0x202F, 0x202F), (0x205F, 0x205F)]),
  (0xFFFFFFFF, [
    0x23FF, 0x24FF, 0x25FF, 0x26FF, 0x27FF, 0x28FF, 0x29FF, 0x2AFF, 0x2BFF, 0x2CFF, 0x2DFF,
    0x2EFF, 0x2FFF, 0x3000, 0xFFFFFFFF],
    [(0x3000, 0x3000)])]

/-- Part 1 of `lowerParts`. -/
def lower1 : Nat × List Step := (0x159, [
  .id 0x0 0x40, .map 0x41 0x61, .map 0x42 0x62, .map 0x43 0x63, .map 0x44 0x64, .map 0x45 0x65,
  .map 0x46 0x66, .map 0x47 0x67, .map 0x48 0x68, .map 0x49 0x69, .map 0x4A 0x6A, .map 0x4B 0x6B,
  .map 0x4C 0x6C, .map 0x4D 0x6D, .map 0x4E 0x6E, .map 0x4F 0x6F, .map 0x50 0x70, .map 0x51 0x71,
  .map 0x52 0x72, .map 0x53 0x73, .map 0x54 0x74, .map 0x55 0x75, .map 0x56 0x76, .map 0x57 0x77,
  .map 0x58 0x78, .map 0x59 0x79, .map 0x5A 0x7A, .id 0x5B 0xBF, .map 0xC0 0xE0, .map 0xC1 0xE1,
  .map 0xC2 0xE2, .map 0xC3 0xE3, .map 0xC4 0xE4, .map 0xC5 0xE5, .map 0xC6 0xE6, .map 0xC7 0xE7,
  .map 0xC8 0xE8, .map 0xC9 0xE9, .map 0xCA 0xEA, .map 0xCB 0xEB, .map 0xCC 0xEC, .map 0xCD 0xED,
  .map 0xCE 0xEE, .map 0xCF 0xEF, .map 0xD0 0xF0, .map 0xD1 0xF1, .map 0xD2 0xF2, .map 0xD3 0xF3,
  .map 0xD4 0xF4, .map 0xD5 0xF5, .map 0xD6 0xF6, .map 0xD7 0xF7, .map 0xD8 0xF8, .map 0xD9 0xF9,
  .map 0xDA 0xFA, .map 0xDB 0xFB, .map 0xDC 0xFC, .map 0xDD 0xFD, .map 0xDE 0xFE, .id 0xDF 0xFF,
  .map 0x100 0x101, .id 0x101 0x101, .map 0x102 0x103, .id 0x103 0x103, .map 0x104 0x105,
  .id 0x105 0x105, .map 0x106 0x107, .id 0x107 0x107, .map 0x108 0x109, .id 0x109 0x109,
  .map 0x10A 0x10B, .id 0x10B 0x10B, .map 0x10C 0x10D, .id 0x10D 0x10D, .map 0x10E 0x10F,
  .id 0x10F 0x10F, .map 0x110 0x111, .id 0x111 0x111, .map 0x112 0x113, .id 0x113 0x113,
  .map 0x114 0x115, .id 0x115 0x115, .map 0x116 0x117, .id 0x117 0x117, .map 0x118 0x119,
  .id 0x119 0x119, .map 0x11A 0x11B, .id 0x11B 0x11B, .map 0x11C 0x11D, .id 0x11D 0x11D,
  .map 0x11E 0x11F, .id 0x11F 0x11F, .map 0x120 0x121, .id 0x121 0x121, .map 0x122 0x123,
  .id 0x123 0x123, .map 0x124 0x125, .id 0x125 0x125, .map 0x126 0x127, .id 0x127 0x127,
  .map 0x128 0x129, .id 0x129 0x129, .map 0x12A 0x12B, .id 0x12B 0x12B, .map 0x12C 0x12D,
  .id 0x12D 0x12D, .map 0x12E 0x12F, .id 0x12F 0x12F, .map 0x130 0x69, .id 0x131 0x131,
  .map 0x132 0x133, .id 0x133 0x133, .map 0x134 0x135, .id 0x135 0x135, .map 0x136 0x137,
  .id 0x137 0x137, .id 0x138 0x138, .map 0x139 0x13A, .id 0x13A 0x13A, .map 0x13B 0x13C,
  .id 0x13C 0x13C, .map 0x13D 0x13E, .id 0x13E 0x13E, .map 0x13F 0x140, .id 0x140 0x140,
  .map 0x141 0x142, .id 0x142 0x142, .map 0x143 0x144, .id 0x144 0x144, .map 0x145 0x146,
  .id 0x146 0x146, .map 0x147 0x148, .id 0x148 0x148, .id 0x149 0x149, .map 0x14A 0x14B,
  .id 0x14B 0x14B, .map 0x14C 0x14D, .id 0x14D 0x14D, .map 0x14E 0x14F, .id 0x14F 0x14F,
  .map 0x150 0x151, .id 0x151 0x151, .map 0x152 0x153, .id 0x153 0x153, .map 0x154 0x155,
  .id 0x155 0x155, .map 0x156 0x157, .id 0x157 0x157, .map 0x158 0x159, .id 0x159 0x159])

/-- Part 2 of `lowerParts`. -/
def lower2 : Nat × List Step := (0x1FC, [
  .map 0x15A 0x15B, .id 0x15B 0x15B, .map 0x15C 0x15D, .id 0x15D 0x15D, .map 0x15E 0x15F,
  .id 0x15F 0x15F, .map 0x160 0x161, .id 0x161 0x161, .map 0x162 0x163, .id 0x163 0x163,
  .map 0x164 0x165, .id 0x165 0x165, .map 0x166 0x167, .id 0x167 0x167, .map 0x168 0x169,
  .id 0x169 0x169, .map 0x16A 0x16B, .id 0x16B 0x16B, .map 0x16C 0x16D, .id 0x16D 0x16D,
  .map 0x16E 0x16F, .id 0x16F 0x16F, .map 0x170 0x171, .id 0x171 0x171, .map 0x172 0x173,
  .id 0x173 0x173, .map 0x174 0x175, .id 0x175 0x175, .map 0x176 0x177, .id 0x177 0x177,
  .map 0x178 0xFF, .map 0x179 0x17A, .id 0x17A 0x17A, .map 0x17B 0x17C, .id 0x17C 0x17C,
  .map 0x17D 0x17E, .id 0x17E 0x17E, .id 0x17F 0x180, .map 0x181 0x253, .map 0x182 0x183,
  .id 0x183 0x183, .map 0x184 0x185, .id 0x185 0x185, .map 0x186 0x254, .map 0x187 0x188,
  .id 0x188 0x188, .map 0x189 0x256, .map 0x18A 0x257, .map 0x18B 0x18C, .id 0x18C 0x18D,
  .map 0x18E 0x1DD, .map 0x18F 0x259, .map 0x190 0x25B, .map 0x191 0x192, .id 0x192 0x192,
  .map 0x193 0x260, .map 0x194 0x263, .id 0x195 0x195, .map 0x196 0x269, .map 0x197 0x268,
  .map 0x198 0x199, .id 0x199 0x19B, .map 0x19C 0x26F, .map 0x19D 0x272, .id 0x19E 0x19E,
  .map 0x19F 0x275, .map 0x1A0 0x1A1, .id 0x1A1 0x1A1, .map 0x1A2 0x1A3, .id 0x1A3 0x1A3,
  .map 0x1A4 0x1A5, .id 0x1A5 0x1A5, .map 0x1A6 0x280, .map 0x1A7 0x1A8, .id 0x1A8 0x1A8,
  .map 0x1A9 0x283, .id 0x1AA 0x1AB, .map 0x1AC 0x1AD, .id 0x1AD 0x1AD, .map 0x1AE 0x288,
  .map 0x1AF 0x1B0, .id 0x1B0 0x1B0, .map 0x1B1 0x28A, .map 0x1B2 0x28B, .map 0x1B3 0x1B4,
  .id 0x1B4 0x1B4, .map 0x1B5 0x1B6, .id 0x1B6 0x1B6, .map 0x1B7 0x292, .map 0x1B8 0x1B9,
  .id 0x1B9 0x1BB, .map 0x1BC 0x1BD, .id 0x1BD 0x1C3, .map 0x1C4 0x1C6, .map 0x1C5 0x1C6,
  .id 0x1C6 0x1C6, .map 0x1C7 0x1C9, .map 0x1C8 0x1C9, .id 0x1C9 0x1C9, .map 0x1CA 0x1CC,
  .map 0x1CB 0x1CC, .id 0x1CC 0x1CC, .map 0x1CD 0x1CE, .id 0x1CE 0x1CE, .map 0x1CF 0x1D0,
  .id 0x1D0 0x1D0, .map 0x1D1 0x1D2, .id 0x1D2 0x1D2, .map 0x1D3 0x1D4, .id 0x1D4 0x1D4,
  .map 0x1D5 0x1D6, .id 0x1D6 0x1D6, .map 0x1D7 0x1D8, .id 0x1D8 0x1D8, .map 0x1D9 0x1DA,
  .id 0x1DA 0x1DA, .map 0x1DB 0x1DC, .id 0x1DC 0x1DC, .id 0x1DD 0x1DD, .map 0x1DE 0x1DF,
  .id 0x1DF 0x1DF, .map 0x1E0 0x1E1, .id 0x1E1 0x1E1, .map 0x1E2 0x1E3, .id 0x1E3 0x1E3,
  .map 0x1E4 0x1E5, .id 0x1E5 0x1E5, .map 0x1E6 0x1E7, .id 0x1E7 0x1E7, .map 0x1E8 0x1E9,
  .id 0x1E9 0x1E9, .map 0x1EA 0x1EB, .id 0x1EB 0x1EB, .map 0x1EC 0x1ED, .id 0x1ED 0x1ED,
  .map 0x1EE 0x1EF, .id 0x1EF 0x1EF, .id 0x1F0 0x1F0, .map 0x1F1 0x1F3, .map 0x1F2 0x1F3,
  .id 0x1F3 0x1F3, .map 0x1F4 0x1F5, .id 0x1F5 0x1F5, .map 0x1F6 0x195, .map 0x1F7 0x1BF,
  .map 0x1F8 0x1F9, .id 0x1F9 0x1F9, .map 0x1FA 0x1FB, .id 0x1FB 0x1FB, .map 0x1FC 0x1FD])

/-- Part 3 of `lowerParts`. -/
def lower3 : Nat × List Step := (0x3E9, [
  .id 0x1FD 0x1FD, .map 0x1FE 0x1FF, .id 0x1FF 0x1FF, .map 0x200 0x201, .id 0x201 0x201,
  .map 0x202 0x203, .id 0x203 0x203, .map 0x204 0x205, .id 0x205 0x205, .map 0x206 0x207,
  .id 0x207 0x207, .map 0x208 0x209, .id 0x209 0x209, .map 0x20A 0x20B, .id 0x20B 0x20B,
  .map 0x20C 0x20D, .id 0x20D 0x20D, .map 0x20E 0x20F, .id 0x20F 0x20F, .map 0x210 0x211,
  .id 0x211 0x211, .map 0x212 0x213, .id 0x213 0x213, .map 0x214 0x215, .id 0x215 0x215,
  .map 0x216 0x217, .id 0x217 0x217, .map 0x218 0x219, .id 0x219 0x219, .map 0x21A 0x21B,
  .id 0x21B 0x21B, .map 0x21C 0x21D, .id 0x21D 0x21D, .map 0x21E 0x21F, .id 0x21F 0x21F,
  .map 0x220 0x19E, .id 0x221 0x221, .map 0x222 0x223, .id 0x223 0x223, .map 0x224 0x225,
  .id 0x225 0x225, .map 0x226 0x227, .id 0x227 0x227, .map 0x228 0x229, .id 0x229 0x229,
  .map 0x22A 0x22B, .id 0x22B 0x22B, .map 0x22C 0x22D, .id 0x22D 0x22D, .map 0x22E 0x22F,
  .id 0x22F 0x22F, .map 0x230 0x231, .id 0x231 0x231, .map 0x232 0x233, .id 0x233 0x233,
  .id 0x234 0x239, .map 0x23A 0x2C65, .map 0x23B 0x23C, .id 0x23C 0x23C, .map 0x23D 0x19A,
  .map 0x23E 0x2C66, .id 0x23F 0x240, .map 0x241 0x242, .id 0x242 0x242, .map 0x243 0x180,
  .map 0x244 0x289, .map 0x245 0x28C, .map 0x246 0x247, .id 0x247 0x247, .map 0x248 0x249,
  .id 0x249 0x249, .map 0x24A 0x24B, .id 0x24B 0x24B, .map 0x24C 0x24D, .id 0x24D 0x24D,
  .map 0x24E 0x24F, .id 0x24F 0x24F, .id 0x250 0x2FF, .id 0x300 0x36F, .map 0x370 0x371,
  .id 0x371 0x371, .map 0x372 0x373, .id 0x373 0x373, .id 0x374 0x375, .map 0x376 0x377,
  .id 0x377 0x377, .id 0x378 0x37E, .map 0x37F 0x3F3, .id 0x380 0x385, .map 0x386 0x3AC,
  .id 0x387 0x387, .map 0x388 0x3AD, .map 0x389 0x3AE, .map 0x38A 0x3AF, .id 0x38B 0x38B,
  .map 0x38C 0x3CC, .id 0x38D 0x38D, .map 0x38E 0x3CD, .map 0x38F 0x3CE, .id 0x390 0x390,
  .map 0x391 0x3B1, .map 0x392 0x3B2, .map 0x393 0x3B3, .map 0x394 0x3B4, .map 0x395 0x3B5,
  .map 0x396 0x3B6, .map 0x397 0x3B7, .map 0x398 0x3B8, .map 0x399 0x3B9, .map 0x39A 0x3BA,
  .map 0x39B 0x3BB, .map 0x39C 0x3BC, .map 0x39D 0x3BD, .map 0x39E 0x3BE, .map 0x39F 0x3BF,
  .map 0x3A0 0x3C0, .map 0x3A1 0x3C1, .id 0x3A2 0x3A2, .map 0x3A3 0x3C3, .map 0x3A4 0x3C4,
  .map 0x3A5 0x3C5, .map 0x3A6 0x3C6, .map 0x3A7 0x3C7, .map 0x3A8 0x3C8, .map 0x3A9 0x3C9,
  .map 0x3AA 0x3CA, .map 0x3AB 0x3CB, .id 0x3AC 0x3AF, .id 0x3B0 0x3BF, .id 0x3C0 0x3CE,
  .map 0x3CF 0x3D7, .id 0x3D0 0x3D7, .map 0x3D8 0x3D9, .id 0x3D9 0x3D9, .map 0x3DA 0x3DB,
  .id 0x3DB 0x3DB, .map 0x3DC 0x3DD, .id 0x3DD 0x3DD, .map 0x3DE 0x3DF, .id 0x3DF 0x3DF,
  .map 0x3E0 0x3E1, .id 0x3E1 0x3E1, .map 0x3E2 0x3E3, .id 0x3E3 0x3E3, .map 0x3E4 0x3E5,
  .id 0x3E5 0x3E5, .map 0x3E6 0x3E7, .id 0x3E7 0x3E7, .map 0x3E8 0x3E9, .id 0x3E9 0x3E9])

/-- Part 4 of `lowerParts`. -/
def lower4 : Nat × List Step := (0x4BA, [
  .map 0x3EA 0x3EB, .id 0x3EB 0x3EB, .map 0x3EC 0x3ED, .id 0x3ED 0x3ED, .map 0x3EE 0x3EF,
  .id 0x3EF 0x3EF, .id 0x3F0 0x3F3, .map 0x3F4 0x3B8, .id 0x3F5 0x3F6, .map 0x3F7 0x3F8,
  .id 0x3F8 0x3F8, .map 0x3F9 0x3F2, .map 0x3FA 0x3FB, .id 0x3FB 0x3FC, .map 0x3FD 0x37B,
  .map 0x3FE 0x37C, .map 0x3FF 0x37D, .map 0x400 0x450, .map 0x401 0x451, .map 0x402 0x452,
  .map 0x403 0x453, .map 0x404 0x454, .map 0x405 0x455, .map 0x406 0x456, .map 0x407 0x457,
  .map 0x408 0x458, .map 0x409 0x459, .map 0x40A 0x45A, .map 0x40B 0x45B, .map 0x40C 0x45C,
  .map 0x40D 0x45D, .map 0x40E 0x45E, .map 0x40F 0x45F, .map 0x410 0x430, .map 0x411 0x431,
  .map 0x412 0x432, .map 0x413 0x433, .map 0x414 0x434, .map 0x415 0x435, .map 0x416 0x436,
  .map 0x417 0x437, .map 0x418 0x438, .map 0x419 0x439, .map 0x41A 0x43A, .map 0x41B 0x43B,
  .map 0x41C 0x43C, .map 0x41D 0x43D, .map 0x41E 0x43E, .map 0x41F 0x43F, .map 0x420 0x440,
  .map 0x421 0x441, .map 0x422 0x442, .map 0x423 0x443, .map 0x424 0x444, .map 0x425 0x445,
  .map 0x426 0x446, .map 0x427 0x447, .map 0x428 0x448, .map 0x429 0x449, .map 0x42A 0x44A,
  .map 0x42B 0x44B, .map 0x42C 0x44C, .map 0x42D 0x44D, .map 0x42E 0x44E, .map 0x42F 0x44F,
  .id 0x430 0x45F, .map 0x460 0x461, .id 0x461 0x461, .map 0x462 0x463, .id 0x463 0x463,
  .map 0x464 0x465, .id 0x465 0x465, .map 0x466 0x467, .id 0x467 0x467, .map 0x468 0x469,
  .id 0x469 0x469, .map 0x46A 0x46B, .id 0x46B 0x46B, .map 0x46C 0x46D, .id 0x46D 0x46D,
  .map 0x46E 0x46F, .id 0x46F 0x46F, .map 0x470 0x471, .id 0x471 0x471, .map 0x472 0x473,
  .id 0x473 0x473, .map 0x474 0x475, .id 0x475 0x475, .map 0x476 0x477, .id 0x477 0x477,
  .map 0x478 0x479, .id 0x479 0x479, .map 0x47A 0x47B, .id 0x47B 0x47B, .map 0x47C 0x47D,
  .id 0x47D 0x47D, .map 0x47E 0x47F, .id 0x47F 0x47F, .map 0x480 0x481, .id 0x481 0x481,
  .id 0x482 0x489, .map 0x48A 0x48B, .id 0x48B 0x48B, .map 0x48C 0x48D, .id 0x48D 0x48D,
  .map 0x48E 0x48F, .id 0x48F 0x48F, .map 0x490 0x491, .id 0x491 0x491, .map 0x492 0x493,
  .id 0x493 0x493, .map 0x494 0x495, .id 0x495 0x495, .map 0x496 0x497, .id 0x497 0x497,
  .map 0x498 0x499, .id 0x499 0x499, .map 0x49A 0x49B, .id 0x49B 0x49B, .map 0x49C 0x49D,
  .id 0x49D 0x49D, .map 0x49E 0x49F, .id 0x49F 0x49F, .map 0x4A0 0x4A1, .id 0x4A1 0x4A1,
  .map 0x4A2 0x4A3, .id 0x4A3 0x4A3, .map 0x4A4 0x4A5, .id 0x4A5 0x4A5, .map 0x4A6 0x4A7,
  .id 0x4A7 0x4A7, .map 0x4A8 0x4A9, .id 0x4A9 0x4A9, .map 0x4AA 0x4AB, .id 0x4AB 0x4AB,
  .map 0x4AC 0x4AD, .id 0x4AD 0x4AD, .map 0x4AE 0x4AF, .id 0x4AF 0x4AF, .map 0x4B0 0x4B1,
  .id 0x4B1 0x4B1, .map 0x4B2 0x4B3, .id 0x4B3 0x4B3, .map 0x4B4 0x4B5, .id 0x4B5 0x4B5,
  .map 0x4B6 0x4B7, .id 0x4B7 0x4B7, .map 0x4B8 0x4B9, .id 0x4B9 0x4B9, .map 0x4BA 0x4BB])

/-- Part 5 of `lowerParts`. -/
def lower5 : Nat × List Step := (0x550, [
  .id 0x4BB 0x4BB, .map 0x4BC 0x4BD, .id 0x4BD 0x4BD, .map 0x4BE 0x4BF, .id 0x4BF 0x4BF,
  .map 0x4C0 0x4CF, .map 0x4C1 0x4C2, .id 0x4C2 0x4C2, .map 0x4C3 0x4C4, .id 0x4C4 0x4C4,
  .map 0x4C5 0x4C6, .id 0x4C6 0x4C6, .map 0x4C7 0x4C8, .id 0x4C8 0x4C8, .map 0x4C9 0x4CA,
  .id 0x4CA 0x4CA, .map 0x4CB 0x4CC, .id 0x4CC 0x4CC, .map 0x4CD 0x4CE, .id 0x4CE 0x4CE,
  .id 0x4CF 0x4CF, .map 0x4D0 0x4D1, .id 0x4D1 0x4D1, .map 0x4D2 0x4D3, .id 0x4D3 0x4D3,
  .map 0x4D4 0x4D5, .id 0x4D5 0x4D5, .map 0x4D6 0x4D7, .id 0x4D7 0x4D7, .map 0x4D8 0x4D9,
  .id 0x4D9 0x4D9, .map 0x4DA 0x4DB, .id 0x4DB 0x4DB, .map 0x4DC 0x4DD, .id 0x4DD 0x4DD,
  .map 0x4DE 0x4DF, .id 0x4DF 0x4DF, .map 0x4E0 0x4E1, .id 0x4E1 0x4E1, .map 0x4E2 0x4E3,
  .id 0x4E3 0x4E3, .map 0x4E4 0x4E5, .id 0x4E5 0x4E5, .map 0x4E6 0x4E7, .id 0x4E7 0x4E7,
  .map 0x4E8 0x4E9, .id 0x4E9 0x4E9, .map 0x4EA 0x4EB, .id 0x4EB 0x4EB, .map 0x4EC 0x4ED,
  .id 0x4ED 0x4ED, .map 0x4EE 0x4EF, .id 0x4EF 0x4EF, .map 0x4F0 0x4F1, .id 0x4F1 0x4F1,
  .map 0x4F2 0x4F3, .id 0x4F3 0x4F3, .map 0x4F4 0x4F5, .id 0x4F5 0x4F5, .map 0x4F6 0x4F7,
  .id 0x4F7 0x4F7, .map 0x4F8 0x4F9, .id 0x4F9 0x4F9, .map 0x4FA 0x4FB, .id 0x4FB 0x4FB,
  .map 0x4FC 0x4FD, .id 0x4FD 0x4FD, .map 0x4FE 0x4FF, .id 0x4FF 0x4FF, .map 0x500 0x501,
  .id 0x501 0x501, .map 0x502 0x503, .id 0x503 0x503, .map 0x504 0x505, .id 0x505 0x505,
  .map 0x506 0x507, .id 0x507 0x507, .map 0x508 0x509, .id 0x509 0x509, .map 0x50A 0x50B,
  .id 0x50B 0x50B, .map 0x50C 0x50D, .id 0x50D 0x50D, .map 0x50E 0x50F, .id 0x50F 0x50F,
  .map 0x510 0x511, .id 0x511 0x511, .map 0x512 0x513, .id 0x513 0x513, .map 0x514 0x515,
  .id 0x515 0x515, .map 0x516 0x517, .id 0x517 0x517, .map 0x518 0x519, .id 0x519 0x519,
  .map 0x51A 0x51B, .id 0x51B 0x51B, .map 0x51C 0x51D, .id 0x51D 0x51D, .map 0x51E 0x51F,
  .id 0x51F 0x51F, .map 0x520 0x521, .id 0x521 0x521, .map 0x522 0x523, .id 0x523 0x523,
  .map 0x524 0x525, .id 0x525 0x525, .map 0x526 0x527, .id 0x527 0x527, .map 0x528 0x529,
  .id 0x529 0x529, .map 0x52A 0x52B, .id 0x52B 0x52B, .map 0x52C 0x52D, .id 0x52D 0x52D,
  .map 0x52E 0x52F, .id 0x52F 0x52F, .id 0x530 0x530, .map 0x531 0x561, .map 0x532 0x562,
  .map 0x533 0x563, .map 0x534 0x564, .map 0x535 0x565, .map 0x536 0x566, .map 0x537 0x567,
  .map 0x538 0x568, .map 0x539 0x569, .map 0x53A 0x56A, .map 0x53B 0x56B, .map 0x53C 0x56C,
  .map 0x53D 0x56D, .map 0x53E 0x56E, .map 0x53F 0x56F, .map 0x540 0x570, .map 0x541 0x571,
  .map 0x542 0x572, .map 0x543 0x573, .map 0x544 0x574, .map 0x545 0x575, .map 0x546 0x576,
  .map 0x547 0x577, .map 0x548 0x578, .map 0x549 0x579, .map 0x54A 0x57A, .map 0x54B 0x57B,
  .map 0x54C 0x57C, .map 0x54D 0x57D, .map 0x54E 0x57E, .map 0x54F 0x57F, .map 0x550 0x580])

/-- Part 6 of `lowerParts`. -/
def lower6 : Nat × List Step := (0x13FF, [
  .map 0x551 0x581, .map 0x552 0x582, .map 0x553 0x583, .map 0x554 0x584, .map 0x555 0x585,
  .map 0x556 0x586, .id 0x557 0x5FF, .id 0x600 0x6FF, .id 0x700 0x7FF, .id 0x800 0x8FF,
  .id 0x900 0x9FF, .id 0xA00 0xAFF, .id 0xB00 0xBFF, .id 0xC00 0xCFF, .id 0xD00 0xDFF,
  .id 0xE00 0xEFF, .id 0xF00 0xFFF, .id 0x1000 0x109F, .map 0x10A0 0x2D00, .map 0x10A1 0x2D01,
  .map 0x10A2 0x2D02, .map 0x10A3 0x2D03, .map 0x10A4 0x2D04, .map 0x10A5 0x2D05,
  .map 0x10A6 0x2D06, .map 0x10A7 0x2D07, .map 0x10A8 0x2D08, .map 0x10A9 0x2D09,
  .map 0x10AA 0x2D0A, .map 0x10AB 0x2D0B, .map 0x10AC 0x2D0C, .map 0x10AD 0x2D0D,
  .map 0x10AE 0x2D0E, .map 0x10AF 0x2D0F, .map 0x10B0 0x2D10, .map 0x10B1 0x2D11,
  .map 0x10B2 0x2D12, .map 0x10B3 0x2D13, .map 0x10B4 0x2D14, .map 0x10B5 0x2D15,
  .map 0x10B6 0x2D16, .map 0x10B7 0x2D17, .map 0x10B8 0x2D18, .map 0x10B9 0x2D19,
  .map 0x10BA 0x2D1A, .map 0x10BB 0x2D1B, .map 0x10BC 0x2D1C, .map 0x10BD 0x2D1D,
  .map 0x10BE 0x2D1E, .map 0x10BF 0x2D1F, .map 0x10C0 0x2D20, .map 0x10C1 0x2D21,
  .map 0x10C2 0x2D22, .map 0x10C3 0x2D23, .map 0x10C4 0x2D24, .map 0x10C5 0x2D25,
  .id 0x10C6 0x10C6, .map 0x10C7 0x2D27, .id 0x10C8 0x10CC, .map 0x10CD 0x2D2D,
  .id 0x10CE 0x10FF, .id 0x1100 0x12FF, .id 0x1300 0x139F, .map 0x13A0 0xAB70,
  .map 0x13A1 0xAB71, .map 0x13A2 0xAB72, .map 0x13A3 0xAB73, .map 0x13A4 0xAB74,
  .map 0x13A5 0xAB75, .map 0x13A6 0xAB76, .map 0x13A7 0xAB77, .map 0x13A8 0xAB78,
  .map 0x13A9 0xAB79, .map 0x13AA 0xAB7A, .map 0x13AB 0xAB7B, .map 0x13AC 0xAB7C,
  .map 0x13AD 0xAB7D, .map 0x13AE 0xAB7E, .map 0x13AF 0xAB7F, .map 0x13B0 0xAB80,
  .map 0x13B1 0xAB81, .map 0x13B2 0xAB82, .map 0x13B3 0xAB83, .map 0x13B4 0xAB84,
  .map 0x13B5 0xAB85, .map 0x13B6 0xAB86, .map 0x13B7 0xAB87, .map 0x13B8 0xAB88,
  .map 0x13B9 0xAB89, .map 0x13BA 0xAB8A, .map 0x13BB 0xAB8B, .map 0x13BC 0xAB8C,
  .map 0x13BD 0xAB8D, .map 0x13BE 0xAB8E, .map 0x13BF 0xAB8F, .map 0x13C0 0xAB90,
  .map 0x13C1 0xAB91, .map 0x13C2 0xAB92, .map 0x13C3 0xAB93, .map 0x13C4 0xAB94,
  .map 0x13C5 0xAB95, .map 0x13C6 0xAB96, .map 0x13C7 0xAB97, .map 0x13C8 0xAB98,
  .map 0x13C9 0xAB99, .map 0x13CA 0xAB9A, .map 0x13CB 0xAB9B, .map 0x13CC 0xAB9C,
  .map 0x13CD 0xAB9D, .map 0x13CE 0xAB9E, .map 0x13CF 0xAB9F, .map 0x13D0 0xABA0,
  .map 0x13D1 0xABA1, .map 0x13D2 0xABA2, .map 0x13D3 0xABA3, .map 0x13D4 0xABA4,
  .map 0x13D5 0xABA5, .map 0x13D6 0xABA6, .map 0x13D7 0xABA7, .map 0x13D8 0xABA8,
  .map 0x13D9 0xABA9, .map 0x13DA 0xABAA, .map 0x13DB 0xABAB, .map 0x13DC 0xABAC,
  .map 0x13DD 0xABAD, .map 0x13DE 0xABAE, .map 0x13DF 0xABAF, .map 0x13E0 0xABB0,
  .map 0x13E1 0xABB1, .map 0x13E2 0xABB2, .map 0x13E3 0xABB3, .map 0x13E4 0xABB4,
  .map 0x13E5 0xABB5, .map 0x13E6 0xABB6, .map 0x13E7 0xABB7, .map 0x13E8 0xABB8,
  .map 0x13E9 0xABB9, .map 0x13EA 0xABBA, .map 0x13EB 0xABBB, .map 0x13EC 0xABBC,
  .map 0x13ED 0xABBD, .map 0x13EE 0xABBE, .map 0x13EF 0xABBF, .map 0x13F0 0x13F8,
  .map 0x13F1 0x13F9, .map 0x13F2 0x13FA, .map 0x13F3 0x13FB, .map 0x13F4 0x13FC,
  .map 0x13F5 0x13FD, .id 0x13F6 0x13FF])

/-- Part 7 of `lowerParts`. -/
def lower7 : Nat × List Step := (0x1E94, [
  .id 0x1400 0x1DFF, .map 0x1E00 0x1E01, .id 0x1E01 0x1E01, .map 0x1E02 0x1E03,
  .id 0x1E03 0x1E03, .map 0x1E04 0x1E05, .id 0x1E05 0x1E05, .map 0x1E06 0x1E07,
  .id 0x1E07 0x1E07, .map 0x1E08 0x1E09, .id 0x1E09 0x1E09, .map 0x1E0A 0x1E0B,
  .id 0x1E0B 0x1E0B, .map 0x1E0C 0x1E0D, .id 0x1E0D 0x1E0D, .map 0x1E0E 0x1E0F,
  .id 0x1E0F 0x1E0F, .map 0x1E10 0x1E11, .id 0x1E11 0x1E11, .map 0x1E12 0x1E13,
  .id 0x1E13 0x1E13, .map 0x1E14 0x1E15, .id 0x1E15 0x1E15, .map 0x1E16 0x1E17,
  .id 0x1E17 0x1E17, .map 0x1E18 0x1E19, .id 0x1E19 0x1E19, .map 0x1E1A 0x1E1B,
  .id 0x1E1B 0x1E1B, .map 0x1E1C 0x1E1D, .id 0x1E1D 0x1E1D, .map 0x1E1E 0x1E1F,
  .id 0x1E1F 0x1E1F, .map 0x1E20 0x1E21, .id 0x1E21 0x1E21, .map 0x1E22 0x1E23,
  .id 0x1E23 0x1E23, .map 0x1E24 0x1E25, .id 0x1E25 0x1E25, .map 0x1E26 0x1E27,
  .id 0x1E27 0x1E27, .map 0x1E28 0x1E29, .id 0x1E29 0x1E29, .map 0x1E2A 0x1E2B,
  .id 0x1E2B 0x1E2B, .map 0x1E2C 0x1E2D, .id 0x1E2D 0x1E2D, .map 0x1E2E 0x1E2F,
  .id 0x1E2F 0x1E2F, .map 0x1E30 0x1E31, .id 0x1E31 0x1E31, .map 0x1E32 0x1E33,
  .id 0x1E33 0x1E33, .map 0x1E34 0x1E35, .id 0x1E35 0x1E35, .map 0x1E36 0x1E37,
  .id 0x1E37 0x1E37, .map 0x1E38 0x1E39, .id 0x1E39 0x1E39, .map 0x1E3A 0x1E3B,
  .id 0x1E3B 0x1E3B, .map 0x1E3C 0x1E3D, .id 0x1E3D 0x1E3D, .map 0x1E3E 0x1E3F,
  .id 0x1E3F 0x1E3F, .map 0x1E40 0x1E41, .id 0x1E41 0x1E41, .map 0x1E42 0x1E43,
  .id 0x1E43 0x1E43, .map 0x1E44 0x1E45, .id 0x1E45 0x1E45, .map 0x1E46 0x1E47,
  .id 0x1E47 0x1E47, .map 0x1E48 0x1E49, .id 0x1E49 0x1E49, .map 0x1E4A 0x1E4B,
  .id 0x1E4B 0x1E4B, .map 0x1E4C 0x1E4D, .id 0x1E4D 0x1E4D, .map 0x1E4E 0x1E4F,
  .id 0x1E4F 0x1E4F, .map 0x1E50 0x1E51, .id 0x1E51 0x1E51, .map 0x1E52 0x1E53,
  .id 0x1E53 0x1E53, .map 0x1E54 0x1E55, .id 0x1E55 0x1E55, .map 0x1E56 0x1E57,
  .id 0x1E57 0x1E57, .map 0x1E58 0x1E59, .id 0x1E59 0x1E59, .map 0x1E5A 0x1E5B,
  .id 0x1E5B 0x1E5B, .map 0x1E5C 0x1E5D, .id 0x1E5D 0x1E5D, .map 0x1E5E 0x1E5F,
  .id 0x1E5F 0x1E5F, .map 0x1E60 0x1E61, .id 0x1E61 0x1E61, .map 0x1E62 0x1E63,
  .id 0x1E63 0x1E63, .map 0x1E64 0x1E65, .id 0x1E65 0x1E65, .map 0x1E66 0x1E67,
  .id 0x1E67 0x1E67, .map 0x1E68 0x1E69, .id 0x1E69 0x1E69, .map 0x1E6A 0x1E6B,
  .id 0x1E6B 0x1E6B, .map 0x1E6C 0x1E6D, .id 0x1E6D 0x1E6D, .map 0x1E6E 0x1E6F,
  .id 0x1E6F 0x1E6F, .map 0x1E70 0x1E71, .id 0x1E71 0x1E71, .map 0x1E72 0x1E73,
  .id 0x1E73 0x1E73, .map 0x1E74 0x1E75, .id 0x1E75 0x1E75, .map 0x1E76 0x1E77,
  .id 0x1E77 0x1E77, .map 0x1E78 0x1E79, .id 0x1E79 0x1E79, .map 0x1E7A 0x1E7B,
  .id 0x1E7B 0x1E7B, .map 0x1E7C 0x1E7D, .id 0x1E7D 0x1E7D, .map 0x1E7E 0x1E7F,
  .id 0x1E7F 0x1E7F, .map 0x1E80 0x1E81, .id 0x1E81 0x1E81, .map 0x1E82 0x1E83,
  .id 0x1E83 0x1E83, .map 0x1E84 0x1E85, .id 0x1E85 0x1E85, .map 0x1E86 0x1E87,
  .id 0x1E87 0x1E87, .map 0x1E88 0x1E89, .id 0x1E89 0x1E89, .map 0x1E8A 0x1E8B,
  .id 0x1E8B 0x1E8B, .map 0x1E8C 0x1E8D, .id 0x1E8D 0x1E8D, .map 0x1E8E 0x1E8F,
  .id 0x1E8F 0x1E8F, .map 0x1E90 0x1E91, .id 0x1E91 0x1E91, .map 0x1E92 0x1E93,
  .id 0x1E93 0x1E93, .map 0x1E94 0x1E95])

/-- Part 8 of `lowerParts`. -/
def lower8 : Nat × List Step := (0x1F2A, [
  .id 0x1E95 0x1E95, .map 0x1E96 0x1E97, .id 0x1E97 0x1E97, .map 0x1E98 0x1E99,
  .id 0x1E99 0x1E99, .map 0x1E9A 0x1E9B, .id 0x1E9B 0x1E9B, .map 0x1E9C 0x1E9D,
  .id 0x1E9D 0x1E9D, .map 0x1E9E 0xDF, .id 0x1E9F 0x1E9F, .map 0x1EA0 0x1EA1, .id 0x1EA1 0x1EA1,
  .map 0x1EA2 0x1EA3, .id 0x1EA3 0x1EA3, .map 0x1EA4 0x1EA5, .id 0x1EA5 0x1EA5,
  .map 0x1EA6 0x1EA7, .id 0x1EA7 0x1EA7, .map 0x1EA8 0x1EA9, .id 0x1EA9 0x1EA9,
  .map 0x1EAA 0x1EAB, .id 0x1EAB 0x1EAB, .map 0x1EAC 0x1EAD, .id 0x1EAD 0x1EAD,
  .map 0x1EAE 0x1EAF, .id 0x1EAF 0x1EAF, .map 0x1EB0 0x1EB1, .id 0x1EB1 0x1EB1,
  .map 0x1EB2 0x1EB3, .id 0x1EB3 0x1EB3, .map 0x1EB4 0x1EB5, .id 0x1EB5 0x1EB5,
  .map 0x1EB6 0x1EB7, .id 0x1EB7 0x1EB7, .map 0x1EB8 0x1EB9, .id 0x1EB9 0x1EB9,
  .map 0x1EBA 0x1EBB, .id 0x1EBB 0x1EBB, .map 0x1EBC 0x1EBD, .id 0x1EBD 0x1EBD,
  .map 0x1EBE 0x1EBF, .id 0x1EBF 0x1EBF, .map 0x1EC0 0x1EC1, .id 0x1EC1 0x1EC1,
  .map 0x1EC2 0x1EC3, .id 0x1EC3 0x1EC3, .map 0x1EC4 0x1EC5, .id 0x1EC5 0x1EC5,
  .map 0x1EC6 0x1EC7, .id 0x1EC7 0x1EC7, .map 0x1EC8 0x1EC9, .id 0x1EC9 0x1EC9,
  .map 0x1ECA 0x1ECB, .id 0x1ECB 0x1ECB, .map 0x1ECC 0x1ECD, .id 0x1ECD 0x1ECD,
  .map 0x1ECE 0x1ECF, .id 0x1ECF 0x1ECF, .map 0x1ED0 0x1ED1, .id 0x1ED1 0x1ED1,
  .map 0x1ED2 0x1ED3, .id 0x1ED3 0x1ED3, .map 0x1ED4 0x1ED5, .id 0x1ED5 0x1ED5,
  .map 0x1ED6 0x1ED7, .id 0x1ED7 0x1ED7, .map 0x1ED8 0x1ED9, .id 0x1ED9 0x1ED9,
  .map 0x1EDA 0x1EDB, .id 0x1EDB 0x1EDB, .map 0x1EDC 0x1EDD, .id 0x1EDD 0x1EDD,
  .map 0x1EDE 0x1EDF, .id 0x1EDF 0x1EDF, .map 0x1EE0 0x1EE1, .id 0x1EE1 0x1EE1,
  .map 0x1EE2 0x1EE3, .id 0x1EE3 0x1EE3, .map 0x1EE4 0x1EE5, .id 0x1EE5 0x1EE5,
  .map 0x1EE6 0x1EE7, .id 0x1EE7 0x1EE7, .map 0x1EE8 0x1EE9, .id 0x1EE9 0x1EE9,
  .map 0x1EEA 0x1EEB, .id 0x1EEB 0x1EEB, .map 0x1EEC 0x1EED, .id 0x1EED 0x1EED,
  .map 0x1EEE 0x1EEF, .id 0x1EEF 0x1EEF, .map 0x1EF0 0x1EF1, .id 0x1EF1 0x1EF1,
  .map 0x1EF2 0x1EF3, .id 0x1EF3 0x1EF3, .map 0x1EF4 0x1EF5, .id 0x1EF5 0x1EF5,
  .map 0x1EF6 0x1EF7, .id 0x1EF7 0x1EF7, .map 0x1EF8 0x1EF9, .id 0x1EF9 0x1EF9,
  .map 0x1EFA 0x1EFB, .id 0x1EFB 0x1EFB, .map 0x1EFC 0x1EFD, .id 0x1EFD 0x1EFD,
  .map 0x1EFE 0x1EFF, .id 0x1EFF 0x1EFF, .id 0x1F00 0x1F00, .id 0x1F01 0x1F01, .id 0x1F02 0x1F02,
  .id 0x1F03 0x1F03, .id 0x1F04 0x1F04, .id 0x1F05 0x1F05, .id 0x1F06 0x1F06, .id 0x1F07 0x1F07,
  .map 0x1F08 0x1F00, .map 0x1F09 0x1F01, .map 0x1F0A 0x1F02, .map 0x1F0B 0x1F03,
  .map 0x1F0C 0x1F04, .map 0x1F0D 0x1F05, .map 0x1F0E 0x1F06, .map 0x1F0F 0x1F07,
  .id 0x1F10 0x1F10, .id 0x1F11 0x1F11, .id 0x1F12 0x1F12, .id 0x1F13 0x1F13, .id 0x1F14 0x1F14,
  .id 0x1F15 0x1F15, .id 0x1F16 0x1F16, .id 0x1F17 0x1F17, .map 0x1F18 0x1F10,
  .map 0x1F19 0x1F11, .map 0x1F1A 0x1F12, .map 0x1F1B 0x1F13, .map 0x1F1C 0x1F14,
  .map 0x1F1D 0x1F15, .id 0x1F1E 0x1F1E, .id 0x1F1F 0x1F1F, .id 0x1F20 0x1F20, .id 0x1F21 0x1F21,
  .id 0x1F22 0x1F22, .id 0x1F23 0x1F23, .id 0x1F24 0x1F24, .id 0x1F25 0x1F25, .id 0x1F26 0x1F26,
  .id 0x1F27 0x1F27, .map 0x1F28 0x1F20, .map 0x1F29 0x1F21, .map 0x1F2A 0x1F22])

/-- Part 9 of `lowerParts`. -/
def lower9 : Nat × List Step := (0x2126, [
  .map 0x1F2B 0x1F23, .map 0x1F2C 0x1F24, .map 0x1F2D 0x1F25, .map 0x1F2E 0x1F26,
  .map 0x1F2F 0x1F27, .id 0x1F30 0x1F30, .id 0x1F31 0x1F31, .id 0x1F32 0x1F32, .id 0x1F33 0x1F33,
  .id 0x1F34 0x1F34, .id 0x1F35 0x1F35, .id 0x1F36 0x1F36, .id 0x1F37 0x1F37, .map 0x1F38 0x1F30,
  .map 0x1F39 0x1F31, .map 0x1F3A 0x1F32, .map 0x1F3B 0x1F33, .map 0x1F3C 0x1F34,
  .map 0x1F3D 0x1F35, .map 0x1F3E 0x1F36, .map 0x1F3F 0x1F37, .id 0x1F40 0x1F40,
  .id 0x1F41 0x1F41, .id 0x1F42 0x1F42, .id 0x1F43 0x1F43, .id 0x1F44 0x1F44, .id 0x1F45 0x1F45,
  .id 0x1F46 0x1F46, .id 0x1F47 0x1F47, .map 0x1F48 0x1F40, .map 0x1F49 0x1F41,
  .map 0x1F4A 0x1F42, .map 0x1F4B 0x1F43, .map 0x1F4C 0x1F44, .map 0x1F4D 0x1F45,
  .id 0x1F4E 0x1F4E, .id 0x1F4F 0x1F4F, .id 0x1F50 0x1F50, .id 0x1F51 0x1F51, .id 0x1F52 0x1F52,
  .id 0x1F53 0x1F53, .id 0x1F54 0x1F54, .id 0x1F55 0x1F55, .id 0x1F56 0x1F56, .id 0x1F57 0x1F57,
  .id 0x1F58 0x1F58, .map 0x1F59 0x1F51, .id 0x1F5A 0x1F5A, .map 0x1F5B 0x1F53,
  .id 0x1F5C 0x1F5C, .map 0x1F5D 0x1F55, .id 0x1F5E 0x1F5E, .map 0x1F5F 0x1F57,
  .id 0x1F60 0x1F60, .id 0x1F61 0x1F61, .id 0x1F62 0x1F62, .id 0x1F63 0x1F63, .id 0x1F64 0x1F64,
  .id 0x1F65 0x1F65, .id 0x1F66 0x1F66, .id 0x1F67 0x1F67, .map 0x1F68 0x1F60,
  .map 0x1F69 0x1F61, .map 0x1F6A 0x1F62, .map 0x1F6B 0x1F63, .map 0x1F6C 0x1F64,
  .map 0x1F6D 0x1F65, .map 0x1F6E 0x1F66, .map 0x1F6F 0x1F67, .id 0x1F70 0x1F7F,
  .id 0x1F80 0x1F80, .id 0x1F81 0x1F81, .id 0x1F82 0x1F82, .id 0x1F83 0x1F83, .id 0x1F84 0x1F84,
  .id 0x1F85 0x1F85, .id 0x1F86 0x1F86, .id 0x1F87 0x1F87, .map 0x1F88 0x1F80,
  .map 0x1F89 0x1F81, .map 0x1F8A 0x1F82, .map 0x1F8B 0x1F83, .map 0x1F8C 0x1F84,
  .map 0x1F8D 0x1F85, .map 0x1F8E 0x1F86, .map 0x1F8F 0x1F87, .id 0x1F90 0x1F90,
  .id 0x1F91 0x1F91, .id 0x1F92 0x1F92, .id 0x1F93 0x1F93, .id 0x1F94 0x1F94, .id 0x1F95 0x1F95,
  .id 0x1F96 0x1F96, .id 0x1F97 0x1F97, .map 0x1F98 0x1F90, .map 0x1F99 0x1F91,
  .map 0x1F9A 0x1F92, .map 0x1F9B 0x1F93, .map 0x1F9C 0x1F94, .map 0x1F9D 0x1F95,
  .map 0x1F9E 0x1F96, .map 0x1F9F 0x1F97, .id 0x1FA0 0x1FA0, .id 0x1FA1 0x1FA1,
  .id 0x1FA2 0x1FA2, .id 0x1FA3 0x1FA3, .id 0x1FA4 0x1FA4, .id 0x1FA5 0x1FA5, .id 0x1FA6 0x1FA6,
  .id 0x1FA7 0x1FA7, .map 0x1FA8 0x1FA0, .map 0x1FA9 0x1FA1, .map 0x1FAA 0x1FA2,
  .map 0x1FAB 0x1FA3, .map 0x1FAC 0x1FA4, .map 0x1FAD 0x1FA5, .map 0x1FAE 0x1FA6,
  .map 0x1FAF 0x1FA7, .id 0x1FB0 0x1FB7, .map 0x1FB8 0x1FB0, .map 0x1FB9 0x1FB1,
  .map 0x1FBA 0x1F70, .map 0x1FBB 0x1F71, .map 0x1FBC 0x1FB3, .id 0x1FBD 0x1FC7,
  .map 0x1FC8 0x1F72, .map 0x1FC9 0x1F73, .map 0x1FCA 0x1F74, .map 0x1FCB 0x1F75,
  .map 0x1FCC 0x1FC3, .id 0x1FCD 0x1FD7, .map 0x1FD8 0x1FD0, .map 0x1FD9 0x1FD1,
  .map 0x1FDA 0x1F76, .map 0x1FDB 0x1F77, .id 0x1FDC 0x1FE7, .map 0x1FE8 0x1FE0,
  .map 0x1FE9 0x1FE1, .map 0x1FEA 0x1F7A, .map 0x1FEB 0x1F7B, .map 0x1FEC 0x1FE5,
  .id 0x1FED 0x1FF7, .map 0x1FF8 0x1F78, .map 0x1FF9 0x1F79, .map 0x1FFA 0x1F7C,
  .map 0x1FFB 0x1F7D, .map 0x1FFC 0x1FF3, .id 0x1FFD 0x1FFF, .id 0x2000 0x2125, .map 0x2126 0x3C9])

/-- Part 10 of `lowerParts`. -/
def lower10 : Nat × List Step := (0x2C9A, [
  .id 0x2127 0x2129, .map 0x212A 0x6B, .map 0x212B 0xE5, .id 0x212C 0x2131, .map 0x2132 0x214E,
  .id 0x2133 0x215F, .map 0x2160 0x2170, .map 0x2161 0x2171, .map 0x2162 0x2172,
  .map 0x2163 0x2173, .map 0x2164 0x2174, .map 0x2165 0x2175, .map 0x2166 0x2176,
  .map 0x2167 0x2177, .map 0x2168 0x2178, .map 0x2169 0x2179, .map 0x216A 0x217A,
  .map 0x216B 0x217B, .map 0x216C 0x217C, .map 0x216D 0x217D, .map 0x216E 0x217E,
  .map 0x216F 0x217F, .id 0x2170 0x2182, .map 0x2183 0x2184, .id 0x2184 0x24B5,
  .map 0x24B6 0x24D0, .map 0x24B7 0x24D1, .map 0x24B8 0x24D2, .map 0x24B9 0x24D3,
  .map 0x24BA 0x24D4, .map 0x24BB 0x24D5, .map 0x24BC 0x24D6, .map 0x24BD 0x24D7,
  .map 0x24BE 0x24D8, .map 0x24BF 0x24D9, .map 0x24C0 0x24DA, .map 0x24C1 0x24DB,
  .map 0x24C2 0x24DC, .map 0x24C3 0x24DD, .map 0x24C4 0x24DE, .map 0x24C5 0x24DF,
  .map 0x24C6 0x24E0, .map 0x24C7 0x24E1, .map 0x24C8 0x24E2, .map 0x24C9 0x24E3,
  .map 0x24CA 0x24E4, .map 0x24CB 0x24E5, .map 0x24CC 0x24E6, .map 0x24CD 0x24E7,
  .map 0x24CE 0x24E8, .map 0x24CF 0x24E9, .id 0x24D0 0x2BFF, .map 0x2C00 0x2C30,
  .map 0x2C01 0x2C31, .map 0x2C02 0x2C32, .map 0x2C03 0x2C33, .map 0x2C04 0x2C34,
  .map 0x2C05 0x2C35, .map 0x2C06 0x2C36, .map 0x2C07 0x2C37, .map 0x2C08 0x2C38,
  .map 0x2C09 0x2C39, .map 0x2C0A 0x2C3A, .map 0x2C0B 0x2C3B, .map 0x2C0C 0x2C3C,
  .map 0x2C0D 0x2C3D, .map 0x2C0E 0x2C3E, .map 0x2C0F 0x2C3F, .map 0x2C10 0x2C40,
  .map 0x2C11 0x2C41, .map 0x2C12 0x2C42, .map 0x2C13 0x2C43, .map 0x2C14 0x2C44,
  .map 0x2C15 0x2C45, .map 0x2C16 0x2C46, .map 0x2C17 0x2C47, .map 0x2C18 0x2C48,
  .map 0x2C19 0x2C49, .map 0x2C1A 0x2C4A, .map 0x2C1B 0x2C4B, .map 0x2C1C 0x2C4C,
  .map 0x2C1D 0x2C4D, .map 0x2C1E 0x2C4E, .map 0x2C1F 0x2C4F, .map 0x2C20 0x2C50,
  .map 0x2C21 0x2C51, .map 0x2C22 0x2C52, .map 0x2C23 0x2C53, .map 0x2C24 0x2C54,
  .map 0x2C25 0x2C55, .map 0x2C26 0x2C56, .map 0x2C27 0x2C57, .map 0x2C28 0x2C58,
  .map 0x2C29 0x2C59, .map 0x2C2A 0x2C5A, .map 0x2C2B 0x2C5B, .map 0x2C2C 0x2C5C,
  .map 0x2C2D 0x2C5D, .map 0x2C2E 0x2C5E, .id 0x2C2F 0x2C5F, .map 0x2C60 0x2C61,
  .id 0x2C61 0x2C61, .map 0x2C62 0x26B, .map 0x2C63 0x1D7D, .map 0x2C64 0x27D, .id 0x2C65 0x2C66,
  .map 0x2C67 0x2C68, .id 0x2C68 0x2C68, .map 0x2C69 0x2C6A, .id 0x2C6A 0x2C6A,
  .map 0x2C6B 0x2C6C, .id 0x2C6C 0x2C6C, .map 0x2C6D 0x251, .map 0x2C6E 0x271, .map 0x2C6F 0x250,
  .map 0x2C70 0x252, .id 0x2C71 0x2C71, .map 0x2C72 0x2C73, .id 0x2C73 0x2C74,
  .map 0x2C75 0x2C76, .id 0x2C76 0x2C7D, .map 0x2C7E 0x23F, .map 0x2C7F 0x240,
  .map 0x2C80 0x2C81, .id 0x2C81 0x2C81, .map 0x2C82 0x2C83, .id 0x2C83 0x2C83,
  .map 0x2C84 0x2C85, .id 0x2C85 0x2C85, .map 0x2C86 0x2C87, .id 0x2C87 0x2C87,
  .map 0x2C88 0x2C89, .id 0x2C89 0x2C89, .map 0x2C8A 0x2C8B, .id 0x2C8B 0x2C8B,
  .map 0x2C8C 0x2C8D, .id 0x2C8D 0x2C8D, .map 0x2C8E 0x2C8F, .id 0x2C8F 0x2C8F,
  .map 0x2C90 0x2C91, .id 0x2C91 0x2C91, .map 0x2C92 0x2C93, .id 0x2C93 0x2C93,
  .map 0x2C94 0x2C95, .id 0x2C95 0x2C95, .map 0x2C96 0x2C97, .id 0x2C97 0x2C97,
  .map 0x2C98 0x2C99, .id 0x2C99 0x2C99, .map 0x2C9A 0x2C9B])

/-- Part 11 of `lowerParts`. -/
def lower11 : Nat × List Step := (0xA691, [
  .id 0x2C9B 0x2C9B, .map 0x2C9C 0x2C9D, .id 0x2C9D 0x2C9D, .map 0x2C9E 0x2C9F,
  .id 0x2C9F 0x2C9F, .map 0x2CA0 0x2CA1, .id 0x2CA1 0x2CA1, .map 0x2CA2 0x2CA3,
  .id 0x2CA3 0x2CA3, .map 0x2CA4 0x2CA5, .id 0x2CA5 0x2CA5, .map 0x2CA6 0x2CA7,
  .id 0x2CA7 0x2CA7, .map 0x2CA8 0x2CA9, .id 0x2CA9 0x2CA9, .map 0x2CAA 0x2CAB,
  .id 0x2CAB 0x2CAB, .map 0x2CAC 0x2CAD, .id 0x2CAD 0x2CAD, .map 0x2CAE 0x2CAF,
  .id 0x2CAF 0x2CAF, .map 0x2CB0 0x2CB1, .id 0x2CB1 0x2CB1, .map 0x2CB2 0x2CB3,
  .id 0x2CB3 0x2CB3, .map 0x2CB4 0x2CB5, .id 0x2CB5 0x2CB5, .map 0x2CB6 0x2CB7,
  .id 0x2CB7 0x2CB7, .map 0x2CB8 0x2CB9, .id 0x2CB9 0x2CB9, .map 0x2CBA 0x2CBB,
  .id 0x2CBB 0x2CBB, .map 0x2CBC 0x2CBD, .id 0x2CBD 0x2CBD, .map 0x2CBE 0x2CBF,
  .id 0x2CBF 0x2CBF, .map 0x2CC0 0x2CC1, .id 0x2CC1 0x2CC1, .map 0x2CC2 0x2CC3,
  .id 0x2CC3 0x2CC3, .map 0x2CC4 0x2CC5, .id 0x2CC5 0x2CC5, .map 0x2CC6 0x2CC7,
  .id 0x2CC7 0x2CC7, .map 0x2CC8 0x2CC9, .id 0x2CC9 0x2CC9, .map 0x2CCA 0x2CCB,
  .id 0x2CCB 0x2CCB, .map 0x2CCC 0x2CCD, .id 0x2CCD 0x2CCD, .map 0x2CCE 0x2CCF,
  .id 0x2CCF 0x2CCF, .map 0x2CD0 0x2CD1, .id 0x2CD1 0x2CD1, .map 0x2CD2 0x2CD3,
  .id 0x2CD3 0x2CD3, .map 0x2CD4 0x2CD5, .id 0x2CD5 0x2CD5, .map 0x2CD6 0x2CD7,
  .id 0x2CD7 0x2CD7, .map 0x2CD8 0x2CD9, .id 0x2CD9 0x2CD9, .map 0x2CDA 0x2CDB,
  .id 0x2CDB 0x2CDB, .map 0x2CDC 0x2CDD, .id 0x2CDD 0x2CDD, .map 0x2CDE 0x2CDF,
  .id 0x2CDF 0x2CDF, .map 0x2CE0 0x2CE1, .id 0x2CE1 0x2CE1, .map 0x2CE2 0x2CE3,
  .id 0x2CE3 0x2CE3, .id 0x2CE4 0x2CEA, .map 0x2CEB 0x2CEC, .id 0x2CEC 0x2CEC,
  .map 0x2CED 0x2CEE, .id 0x2CEE 0x2CEE, .id 0x2CEF 0x2CF1, .map 0x2CF2 0x2CF3,
  .id 0x2CF3 0x2CFF, .id 0x2D00 0x2FFF, .id 0x3000 0x9FFF, .id 0xA000 0xA5FF, .id 0xA600 0xA63F,
  .map 0xA640 0xA641, .id 0xA641 0xA641, .map 0xA642 0xA643, .id 0xA643 0xA643,
  .map 0xA644 0xA645, .id 0xA645 0xA645, .map 0xA646 0xA647, .id 0xA647 0xA647,
  .map 0xA648 0xA649, .id 0xA649 0xA649, .map 0xA64A 0xA64B, .id 0xA64B 0xA64B,
  .map 0xA64C 0xA64D, .id 0xA64D 0xA64D, .map 0xA64E 0xA64F, .id 0xA64F 0xA64F,
  .map 0xA650 0xA651, .id 0xA651 0xA651, .map 0xA652 0xA653, .id 0xA653 0xA653,
  .map 0xA654 0xA655, .id 0xA655 0xA655, .map 0xA656 0xA657, .id 0xA657 0xA657,
  .map 0xA658 0xA659, .id 0xA659 0xA659, .map 0xA65A 0xA65B, .id 0xA65B 0xA65B,
  .map 0xA65C 0xA65D, .id 0xA65D 0xA65D, .map 0xA65E 0xA65F, .id 0xA65F 0xA65F,
  .map 0xA660 0xA661, .id 0xA661 0xA661, .map 0xA662 0xA663, .id 0xA663 0xA663,
  .map 0xA664 0xA665, .id 0xA665 0xA665, .map 0xA666 0xA667, .id 0xA667 0xA667,
  .map 0xA668 0xA669, .id 0xA669 0xA669, .map 0xA66A 0xA66B, .id 0xA66B 0xA66B,
  .map 0xA66C 0xA66D, .id 0xA66D 0xA66D, .id 0xA66E 0xA67F, .map 0xA680 0xA681,
  .id 0xA681 0xA681, .map 0xA682 0xA683, .id 0xA683 0xA683, .map 0xA684 0xA685,
  .id 0xA685 0xA685, .map 0xA686 0xA687, .id 0xA687 0xA687, .map 0xA688 0xA689,
  .id 0xA689 0xA689, .map 0xA68A 0xA68B, .id 0xA68B 0xA68B, .map 0xA68C 0xA68D,
  .id 0xA68D 0xA68D, .map 0xA68E 0xA68F, .id 0xA68F 0xA68F, .map 0xA690 0xA691, .id 0xA691 0xA691])

/-- Part 12 of `lowerParts`. -/
def lower12 : Nat × List Step := (0xA7FF, [
  .map 0xA692 0xA693, .id 0xA693 0xA693, .map 0xA694 0xA695, .id 0xA695 0xA695,
  .map 0xA696 0xA697, .id 0xA697 0xA697, .map 0xA698 0xA699, .id 0xA699 0xA699,
  .map 0xA69A 0xA69B, .id 0xA69B 0xA69B, .id 0xA69C 0xA6FF, .id 0xA700 0xA721,
  .map 0xA722 0xA723, .id 0xA723 0xA723, .map 0xA724 0xA725, .id 0xA725 0xA725,
  .map 0xA726 0xA727, .id 0xA727 0xA727, .map 0xA728 0xA729, .id 0xA729 0xA729,
  .map 0xA72A 0xA72B, .id 0xA72B 0xA72B, .map 0xA72C 0xA72D, .id 0xA72D 0xA72D,
  .map 0xA72E 0xA72F, .id 0xA72F 0xA72F, .id 0xA730 0xA731, .map 0xA732 0xA733,
  .id 0xA733 0xA733, .map 0xA734 0xA735, .id 0xA735 0xA735, .map 0xA736 0xA737,
  .id 0xA737 0xA737, .map 0xA738 0xA739, .id 0xA739 0xA739, .map 0xA73A 0xA73B,
  .id 0xA73B 0xA73B, .map 0xA73C 0xA73D, .id 0xA73D 0xA73D, .map 0xA73E 0xA73F,
  .id 0xA73F 0xA73F, .map 0xA740 0xA741, .id 0xA741 0xA741, .map 0xA742 0xA743,
  .id 0xA743 0xA743, .map 0xA744 0xA745, .id 0xA745 0xA745, .map 0xA746 0xA747,
  .id 0xA747 0xA747, .map 0xA748 0xA749, .id 0xA749 0xA749, .map 0xA74A 0xA74B,
  .id 0xA74B 0xA74B, .map 0xA74C 0xA74D, .id 0xA74D 0xA74D, .map 0xA74E 0xA74F,
  .id 0xA74F 0xA74F, .map 0xA750 0xA751, .id 0xA751 0xA751, .map 0xA752 0xA753,
  .id 0xA753 0xA753, .map 0xA754 0xA755, .id 0xA755 0xA755, .map 0xA756 0xA757,
  .id 0xA757 0xA757, .map 0xA758 0xA759, .id 0xA759 0xA759, .map 0xA75A 0xA75B,
  .id 0xA75B 0xA75B, .map 0xA75C 0xA75D, .id 0xA75D 0xA75D, .map 0xA75E 0xA75F,
  .id 0xA75F 0xA75F, .map 0xA760 0xA761, .id 0xA761 0xA761, .map 0xA762 0xA763,
  .id 0xA763 0xA763, .map 0xA764 0xA765, .id 0xA765 0xA765, .map 0xA766 0xA767,
  .id 0xA767 0xA767, .map 0xA768 0xA769, .id 0xA769 0xA769, .map 0xA76A 0xA76B,
  .id 0xA76B 0xA76B, .map 0xA76C 0xA76D, .id 0xA76D 0xA76D, .map 0xA76E 0xA76F,
  .id 0xA76F 0xA76F, .id 0xA770 0xA778, .map 0xA779 0xA77A, .id 0xA77A 0xA77A,
  .map 0xA77B 0xA77C, .id 0xA77C 0xA77C, .map 0xA77D 0x1D79, .map 0xA77E 0xA77F,
  .id 0xA77F 0xA77F, .map 0xA780 0xA781, .id 0xA781 0xA781, .map 0xA782 0xA783,
  .id 0xA783 0xA783, .map 0xA784 0xA785, .id 0xA785 0xA785, .map 0xA786 0xA787,
  .id 0xA787 0xA787, .id 0xA788 0xA78A, .map 0xA78B 0xA78C, .id 0xA78C 0xA78C, .map 0xA78D 0x265,
  .id 0xA78E 0xA78F, .map 0xA790 0xA791, .id 0xA791 0xA791, .map 0xA792 0xA793,
  .id 0xA793 0xA793, .id 0xA794 0xA795, .map 0xA796 0xA797, .id 0xA797 0xA797,
  .map 0xA798 0xA799, .id 0xA799 0xA799, .map 0xA79A 0xA79B, .id 0xA79B 0xA79B,
  .map 0xA79C 0xA79D, .id 0xA79D 0xA79D, .map 0xA79E 0xA79F, .id 0xA79F 0xA79F,
  .map 0xA7A0 0xA7A1, .id 0xA7A1 0xA7A1, .map 0xA7A2 0xA7A3, .id 0xA7A3 0xA7A3,
  .map 0xA7A4 0xA7A5, .id 0xA7A5 0xA7A5, .map 0xA7A6 0xA7A7, .id 0xA7A7 0xA7A7,
  .map 0xA7A8 0xA7A9, .id 0xA7A9 0xA7A9, .map 0xA7AA 0x266, .map 0xA7AB 0x25C, .map 0xA7AC 0x261,
  .map 0xA7AD 0x26C, .map 0xA7AE 0x26A, .id 0xA7AF 0xA7AF, .map 0xA7B0 0x29E, .map 0xA7B1 0x287,
  .map 0xA7B2 0x29D, .map 0xA7B3 0xAB53, .map 0xA7B4 0xA7B5, .id 0xA7B5 0xA7B5,
  .map 0xA7B6 0xA7B7, .id 0xA7B7 0xA7B7, .id 0xA7B8 0xA7FF])

/-- Part 13 of `lowerParts`. -/
def lower13 : Nat × List Step := (0x10CA7, [
  .id 0xA800 0xAFFF, .id 0xB000 0xEFFF, .id 0xF000 0xFEFF, .id 0xFF00 0xFF20, .map 0xFF21 0xFF41,
  .map 0xFF22 0xFF42, .map 0xFF23 0xFF43, .map 0xFF24 0xFF44, .map 0xFF25 0xFF45,
  .map 0xFF26 0xFF46, .map 0xFF27 0xFF47, .map 0xFF28 0xFF48, .map 0xFF29 0xFF49,
  .map 0xFF2A 0xFF4A, .map 0xFF2B 0xFF4B, .map 0xFF2C 0xFF4C, .map 0xFF2D 0xFF4D,
  .map 0xFF2E 0xFF4E, .map 0xFF2F 0xFF4F, .map 0xFF30 0xFF50, .map 0xFF31 0xFF51,
  .map 0xFF32 0xFF52, .map 0xFF33 0xFF53, .map 0xFF34 0xFF54, .map 0xFF35 0xFF55,
  .map 0xFF36 0xFF56, .map 0xFF37 0xFF57, .map 0xFF38 0xFF58, .map 0xFF39 0xFF59,
  .map 0xFF3A 0xFF5A, .id 0xFF3B 0xFFFF, .id 0x10000 0x103FF, .map 0x10400 0x10428,
  .map 0x10401 0x10429, .map 0x10402 0x1042A, .map 0x10403 0x1042B, .map 0x10404 0x1042C,
  .map 0x10405 0x1042D, .map 0x10406 0x1042E, .map 0x10407 0x1042F, .map 0x10408 0x10430,
  .map 0x10409 0x10431, .map 0x1040A 0x10432, .map 0x1040B 0x10433, .map 0x1040C 0x10434,
  .map 0x1040D 0x10435, .map 0x1040E 0x10436, .map 0x1040F 0x10437, .map 0x10410 0x10438,
  .map 0x10411 0x10439, .map 0x10412 0x1043A, .map 0x10413 0x1043B, .map 0x10414 0x1043C,
  .map 0x10415 0x1043D, .map 0x10416 0x1043E, .map 0x10417 0x1043F, .map 0x10418 0x10440,
  .map 0x10419 0x10441, .map 0x1041A 0x10442, .map 0x1041B 0x10443, .map 0x1041C 0x10444,
  .map 0x1041D 0x10445, .map 0x1041E 0x10446, .map 0x1041F 0x10447, .map 0x10420 0x10448,
  .map 0x10421 0x10449, .map 0x10422 0x1044A, .map 0x10423 0x1044B, .map 0x10424 0x1044C,
  .map 0x10425 0x1044D, .map 0x10426 0x1044E, .map 0x10427 0x1044F, .id 0x10428 0x104AF,
  .map 0x104B0 0x104D8, .map 0x104B1 0x104D9, .map 0x104B2 0x104DA, .map 0x104B3 0x104DB,
  .map 0x104B4 0x104DC, .map 0x104B5 0x104DD, .map 0x104B6 0x104DE, .map 0x104B7 0x104DF,
  .map 0x104B8 0x104E0, .map 0x104B9 0x104E1, .map 0x104BA 0x104E2, .map 0x104BB 0x104E3,
  .map 0x104BC 0x104E4, .map 0x104BD 0x104E5, .map 0x104BE 0x104E6, .map 0x104BF 0x104E7,
  .map 0x104C0 0x104E8, .map 0x104C1 0x104E9, .map 0x104C2 0x104EA, .map 0x104C3 0x104EB,
  .map 0x104C4 0x104EC, .map 0x104C5 0x104ED, .map 0x104C6 0x104EE, .map 0x104C7 0x104EF,
  .map 0x104C8 0x104F0, .map 0x104C9 0x104F1, .map 0x104CA 0x104F2, .map 0x104CB 0x104F3,
  .map 0x104CC 0x104F4, .map 0x104CD 0x104F5, .map 0x104CE 0x104F6, .map 0x104CF 0x104F7,
  .map 0x104D0 0x104F8, .map 0x104D1 0x104F9, .map 0x104D2 0x104FA, .map 0x104D3 0x104FB,
  .id 0x104D4 0x10C7F, .map 0x10C80 0x10CC0, .map 0x10C81 0x10CC1, .map 0x10C82 0x10CC2,
  .map 0x10C83 0x10CC3, .map 0x10C84 0x10CC4, .map 0x10C85 0x10CC5, .map 0x10C86 0x10CC6,
  .map 0x10C87 0x10CC7, .map 0x10C88 0x10CC8, .map 0x10C89 0x10CC9, .map 0x10C8A 0x10CCA,
  .map 0x10C8B 0x10CCB, .map 0x10C8C 0x10CCC, .map 0x10C8D 0x10CCD, .map 0x10C8E 0x10CCE,
  .map 0x10C8F 0x10CCF, .map 0x10C90 0x10CD0, .map 0x10C91 0x10CD1, .map 0x10C92 0x10CD2,
  .map 0x10C93 0x10CD3, .map 0x10C94 0x10CD4, .map 0x10C95 0x10CD5, .map 0x10C96 0x10CD6,
  .map 0x10C97 0x10CD7, .map 0x10C98 0x10CD8, .map 0x10C99 0x10CD9, .map 0x10C9A 0x10CDA,
  .map 0x10C9B 0x10CDB, .map 0x10C9C 0x10CDC, .map 0x10C9D 0x10CDD, .map 0x10C9E 0x10CDE,
  .map 0x10C9F 0x10CDF, .map 0x10CA0 0x10CE0, .map 0x10CA1 0x10CE1, .map 0x10CA2 0x10CE2,
  .map 0x10CA3 0x10CE3, .map 0x10CA4 0x10CE4, .map 0x10CA5 0x10CE5, .map 0x10CA6 0x10CE6,
  .map 0x10CA7 0x10CE7])

/-- Part 14 of `lowerParts`. -/
def lower14 : Nat × List Step := (0xFFFFFFFF, [
  .map 0x10CA8 0x10CE8, .map 0x10CA9 0x10CE9, .map 0x10CAA 0x10CEA, .map 0x10CAB 0x10CEB,
  .map 0x10CAC 0x10CEC, .map 0x10CAD 0x10CED, .map 0x10CAE 0x10CEE, .map 0x10CAF 0x10CEF,
  .map 0x10CB0 0x10CF0, .map 0x10CB1 0x10CF1, .map 0x10CB2 0x10CF2, .id 0x10CB3 0x1189F,
  .map 0x118A0 0x118C0, .map 0x118A1 0x118C1, .map 0x118A2 0x118C2, .map 0x118A3 0x118C3,
  .map 0x118A4 0x118C4, .map 0x118A5 0x118C5, .map 0x118A6 0x118C6, .map 0x118A7 0x118C7,
  .map 0x118A8 0x118C8, .map 0x118A9 0x118C9, .map 0x118AA 0x118CA, .map 0x118AB 0x118CB,
  .map 0x118AC 0x118CC, .map 0x118AD 0x118CD, .map 0x118AE 0x118CE, .map 0x118AF 0x118CF,
  .map 0x118B0 0x118D0, .map 0x118B1 0x118D1, .map 0x118B2 0x118D2, .map 0x118B3 0x118D3,
  .map 0x118B4 0x118D4, .map 0x118B5 0x118D5, .map 0x118B6 0x118D6, .map 0x118B7 0x118D7,
  .map 0x118B8 0x118D8, .map 0x118B9 0x118D9, .map 0x118BA 0x118DA, .map 0x118BB 0x118DB,
  .map 0x118BC 0x118DC, .map 0x118BD 0x118DD, .map 0x118BE 0x118DE, .map 0x118BF 0x118DF,
  .id 0x118C0 0x1E8FF, .map 0x1E900 0x1E922, .map 0x1E901 0x1E923, .map 0x1E902 0x1E924,
  .map 0x1E903 0x1E925, .map 0x1E904 0x1E926, .map 0x1E905 0x1E927, .map 0x1E906 0x1E928,
  .map 0x1E907 0x1E929, .map 0x1E908 0x1E92A, .map 0x1E909 0x1E92B, .map 0x1E90A 0x1E92C,
  .map 0x1E90B 0x1E92D, .map 0x1E90C 0x1E92E, .map 0x1E90D 0x1E92F, .map 0x1E90E 0x1E930,
  .map 0x1E90F 0x1E931, .map 0x1E910 0x1E932, .map 0x1E911 0x1E933, .map 0x1E912 0x1E934,
  .map 0x1E913 0x1E935, .map 0x1E914 0x1E936, .map 0x1E915 0x1E937, .map 0x1E916 0x1E938,
  .map 0x1E917 0x1E939, .map 0x1E918 0x1E93A, .map 0x1E919 0x1E93B, .map 0x1E91A 0x1E93C,
  .map 0x1E91B 0x1E93D, .map 0x1E91C 0x1E93E, .map 0x1E91D 0x1E93F, .map 0x1E91E 0x1E940,
  .map 0x1E91F 0x1E941, .map 0x1E920 0x1E942, .map 0x1E921 0x1E943, .id 0x1E922 0xFFFFFFFF])

/-- What `toLower(char32_t)` does, in order. -/
def lowerParts : List (Nat × List Step) := [
  lower1, lower2, lower3, lower4, lower5, lower6, lower7, lower8, lower9, lower10, lower11,
  lower12, lower13, lower14]

theorem assigned_check :
    checkParts isUnicodeAssigned32 0xFFFFFFFF assignedParts 0 = true := by
  decide +kernel

theorem assigned_ranges : rangesOf assignedParts = Spec.UnicodeData.V11.assigned := by
  decide +kernel

theorem lower_check : checkVParts toLower 0xFFFFFFFF lowerParts 0 = true := by
  decide +kernel

theorem private16_check :
    checkParts isUnicodePrivate16 0xFFFF private16Parts 0 = true ∧
      rangesOf private16Parts = [(0xE000, 0xF8FF)] := by
  decide +kernel

theorem private32_check :
    checkParts isUnicodePrivate32 0xFFFFFFFF private32Parts 0 = true ∧
      rangesOf private32Parts = [(0xE000, 0xF8FF), (0xF0000, 0xFFFFD), (0x100000, 0x10FFFD)] := by
  decide +kernel

theorem control8_check :
    checkParts isControlChar8 0xFF control8Parts 0 = true ∧
      rangesOf control8Parts = [(0x0, 0x1F), (0x7F, 0x9F)] := by
  decide +kernel

theorem control16_check :
    checkParts isControlChar16 0xFFFF control16Parts 0 = true ∧
      rangesOf control16Parts = [(0x0, 0x1F), (0x7F, 0x9F)] := by
  decide +kernel

theorem control32_check :
    checkParts isControlChar32 0xFFFFFFFF control32Parts 0 = true ∧
      rangesOf control32Parts = [(0x0, 0x1F), (0x7F, 0x9F)] := by
  decide +kernel

theorem white8_check :
    checkParts isWhitespaceChar8 0xFF white8Parts 0 = true ∧
      rangesOf white8Parts = [(0x9, 0xD), (0x20, 0x20), (0x85, 0x85), (0xA0, 0xA0)] := by
  decide +kernel

theorem white16_check :
    checkParts isWhitespaceChar16 0xFFFF white16Parts 0 = true ∧
      rangesOf white16Parts = [(0x9, 0xD), (0x20, 0x20), (0x85, 0x85), (0xA0, 0xA0), (0x1680, 0x1680), (0x2000, 0x200A), (0x2028, 0x2029), (0x202F, 0x202F), (0x205F, 0x205F), (0x3000, 0x3000)] := by
  decide +kernel

theorem white32_check :
    checkParts isWhitespaceChar32 0xFFFFFFFF white32Parts 0 = true ∧
      rangesOf white32Parts = [(0x9, 0xD), (0x20, 0x20), (0x85, 0x85), (0xA0, 0xA0), (0x1680, 0x1680), (0x2000, 0x200A), (0x2028, 0x2029), (0x202F, 0x202F), (0x205F, 0x205F), (0x3000, 0x3000)] := by
  decide +kernel

end Cert

end Ansak.Unicode.Bits11
