"""Write lean/Verif/Gen/LoopClasses.lean: prefixes and CIF names of the loop classes registered in
cryspy/H_functions_global/function_1_cryspy_objects.py (L_LOOP_CLASS).  The source is read as text (ast)."""
import ast
import glob
import os
import re

REPO = '/repo/cryspy'
OUT = os.path.join(os.path.dirname(__file__), '..', 'lean', 'Verif', 'Gen', 'LoopClasses.lean')

src = open(f'{REPO}/H_functions_global/function_1_cryspy_objects.py').read()
m = re.search(r'L_LOOP_CLASS.extend\(\[(.*?)\]\)', src, re.S)
loops = [x.strip() for x in m.group(1).replace('\n', ' ').split(',')]
classes = {}
for f in sorted(glob.glob(f'{REPO}/C_item_loop_classes/*.py')):
    for c in ast.parse(open(f).read()).body:
        if not isinstance(c, ast.ClassDef):
            continue
        env = {}
        for st in c.body:
            if isinstance(st, ast.Assign) and isinstance(st.targets[0], ast.Name):
                n = st.targets[0].id
                try:
                    env[n] = eval(compile(ast.Expression(st.value), 'x', 'eval'),
                                  {'__builtins__': {'tuple': tuple, 'str': str, 'float': float, 'int': int, 'bool': bool,
                                                    'complex': complex}}, dict(env))
                except Exception:
                    if n == 'ITEM_CLASS':
                        env[n] = st.value.id
        classes[c.name] = (env, os.path.basename(f), c.lineno)
with open(OUT, 'w') as o:
    o.write('/-!\n# The loop classes known to the reader of files\n\nWritten by tools/gen_loops.py from L_LOOP_CLASS of '
            'H_functions_global/function_1_cryspy_objects.py:138-152 and the class\nattributes PREFIX and ATTR_CIF of the item classes.\n-/\n\n'
            'namespace Cryspy.Gen\n\n')
    names = []
    for loop in loops:
        ic = classes[loop][0]['ITEM_CLASS']
        env, f, ln = classes[ic]
        names.append(loop)
        def chars(t):
            return '[' + ', '.join(f"'{x}'" for x in t) + ']'
        cif = ', '.join(chars(a) for a in env['ATTR_CIF'])
        doc = ', '.join(env['ATTR_CIF'])
        o.write(f'/-- {loop}: items {ic}, {f}:{ln}: {env["PREFIX"]}; {doc} -/\n'
                f'def loop{loop} : List Char × List (List Char) :=\n  ({chars(env["PREFIX"])},\n  [{cif}])\n')
    o.write('\n/-- `L_LOOP_CLASS` in its order -/\ndef loopClasses : List (List Char × List (List Char)) := [' + ', '.join('loop' + n for n in names) + ']\n\nend Cryspy.Gen\n')
