#!/usr/bin/env python3
"""Print every citation of the model with the first and the last cited line of the source, for reviewing."""
import re, glob, sys
files = {'core.py': 'ramp/core/core.py', 'utils.py': 'ramp/core/utils.py', 'constants.py': 'ramp/core/constants.py', 'cli.py': 'ramp/cli.py',
         'ramp_run.py': 'ramp/ramp_run.py', 'post_process.py': 'ramp/post_process/post_process.py',
         'ramp_convert_old_input_files.py': 'ramp/ramp_convert_old_input_files.py', 'convert.py': 'ramp/ramp_convert_old_input_files.py'}
for f in sorted(glob.glob('/verif/lean/Verif/Model/*.lean')):
    if len(sys.argv) > 1 and sys.argv[1] not in f: continue
    text = open(f).read()
    print('=====', f)
    for m in re.finditer(r'/--((?:(?!-/).)*)-/\s*\n?((?:@\[.*?\]\s*)?(?:inductive|structure|def|abbrev|mutual|\|)[^\n]*)?', text, re.S):
        com, d = m.group(1), (m.group(2) or '')[:60]
        cites = re.findall(r'`?([a-z_]+\.py):(\d+)(?:-(\d+))?', com)
        if not cites: print('NO CITE:', d, '|', ' '.join(com.split())[:100])
        for name, a, b in cites:
            if name not in files: print('??', name); continue
            L = open('/repo/' + files[name]).read().split('\n')
            a = int(a); b = int(b or a)
            print(f"{d:50.50} {name}:{a}-{b}  « {L[a-1].strip()[:60]} » … « {L[b-1].strip()[:60]} »")
