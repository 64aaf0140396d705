Random comparison of the built-ins modelled in `Verif/Py/*` and of the literal regular expressions with CPython's own `int`, `float`, `str`, `re`,
`datetime`, `format` (no code of the project is run).  `gen.py` writes `cases.txt` and `exp.txt` (in /tmp/diff), `Diff.lean.txt` (copy it to /tmp/diff/Diff.lean, run
`lake env lean --run` in /verif/lean) evaluates the model on the cases.  127500 cases; the only differences are
* texts of numbers beyond the range of doubles (`float('9e545')` is `inf`, the model keeps the exact value),
* `datetime(2147483648, 9)`: two arguments, never passed,
* a newline inside a configuration line (`#` comments, quotes), which lines of a file do not have.
