#!/bin/sh
# Compare the model with the expected values written in /repo/tests (read as text, nothing of /repo is run).
# ext.py extracts (input, expected) pairs; Run.lean.txt evaluates the model on them.
set -e
here=$(dirname "$(readlink -f "$0")")
mkdir -p /tmp/fid; cd /tmp/fid
cp "$here/Run.lean.txt" Run.lean
python3 - <<'PY'
import ast
for s in ast.parse(open('/repo/netjsonconfig/backends/openwrt/timezones.py').read()).body:
    if isinstance(s, ast.Assign) and isinstance(s.value, ast.Call) and s.value.args:
        tz = ast.literal_eval(s.value.args[0])
open('tz.txt', 'w').write('\n'.join('%s\t%s' % tuple(x) for x in tz) + '\n')
PY
for b in OpenWrt:openwrt OpenVpn:openvpn Wireguard:wireguard; do
  python3 "$here/ext.py" ${b%%:*} /repo/tests/${b##*:}/test_*.py > skipped-${b%%:*}.txt
  echo "$b"; head -1 skipped-${b%%:*}.txt
  (cd /verif/lean && lake env lean --run /tmp/fid/Run.lean ${b%%:*})
done
