"""Write Verif/Model/Tool/Source.lean: the text of mkUnicodeTestData/mkUnicodeTestData.cxx."""
import os

REPO = '/repo'
OUT = os.path.join(os.path.dirname(os.path.abspath(__file__)), '../lean/Verif/Model/Tool')
FILE = 'mkUnicodeTestData/mkUnicodeTestData.cxx'

text = open(f'{REPO}/{FILE}').read()
assert text.isascii() and '"#' not in text and '\r' not in text
open(f'{OUT}/Source.lean', 'w').write(f'''import Verif.Model.Cxx.Lex

/-!
# The source text of the tool

The file as it is (`tools/gen_tool.py`).
-/

namespace Ansak.Tool

/-- `{FILE}`. -/
def source : Cxx.Text := cxx% r#"{text}"#

end Ansak.Tool
''')
