"""Usage: note.py ID status note — set the note of a property in notes.py."""
import re, sys, pathlib
p = pathlib.Path(__file__).with_name('notes.py')
s = p.read_text()
i, st, note = sys.argv[1:4]
line = f"'{i}': ('{st}', {note!r}),\n"
s = re.sub(rf"^'{i}': .*\n", '', s, flags=re.M).rstrip()
assert s.endswith('}')
p.write_text(s[:-1] + line + '}\n')
