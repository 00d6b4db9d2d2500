"""Write the arrays of /repo/testdata/modis_test_data.h5 as text (10^-12 degrees) into a directory.

usage: python3 dump.py DIR; then, in ../lean, give to `lake env lean --stdin`:
    import Verif.Tests.ModisData
    #eval Verif.Tests.ModisData.main ["DIR"]
"""
import sys

import hdf5_reader

h = hdf5_reader.H5('/repo/testdata/modis_test_data.h5')
for name, addr in h.links(h.root).items():
    _, values = h.read(addr)
    with open(f'{sys.argv[1]}/{name}.txt', 'w') as f:
        f.write(' '.join(str(int(round(x * 10**12))) for x in values))
