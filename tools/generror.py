"""Writes the text of ublox/src/error.rs as lean/Verif/Model/GenError.lean."""
import os
here = os.path.dirname(os.path.abspath(__file__))
LEAN = os.environ.get('GENLEAN', os.path.join(here, '..', 'lean'))
REPO = os.environ.get('GENREPO', '/repo')
text = open(f'{REPO}/ublox/src/error.rs').read()
assert '"#' not in text
open(f'{LEAN}/Verif/Model/GenError.lean', 'w').write(f'''/-! Generated by `tools/generror.py`: the text of `ublox/src/error.rs`; do not edit. -/

namespace Ublox.Gen

/-- `ublox/src/error.rs:1-{len(text.splitlines())}` -/
def errorRs : String := r#"{text}"#

end Ublox.Gen
''')
