lake-manifest.json
