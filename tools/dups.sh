#!/bin/sh
# names declared twice (outside namespaces other than NJ, not private): to be looked at before a full build
cd "$(dirname "$0")/../lean/Verif" && grep -hoE "^(theorem|def|abbrev|structure|inductive) [A-Za-z0-9_.'?₁₂]+" *.lean | awk '{print $2}' | sort | uniq -d
